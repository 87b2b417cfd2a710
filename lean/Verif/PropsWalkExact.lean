import Verif.PropsWalk

/-!
# C79, C80: exact accounts

What areas, centres and pieces of meshes are when blocks of solids, nested points or nested cells are present, and which ids the
cells and points of detached meshes have.
-/

namespace PM

section
variable {P D : Type}

theorem walkOf_filter (m : List (MBlock P D)) (p : List Nat) (f : MBlock P D → Bool) :
    (walkOf m p).filter (fun w => f w.1.1) =
      ((cellsUnder m p).filter fun c => f c.1).flatMap fun c => (List.range c.2.topo.length).map fun j => (c, j) := by
  unfold walkOf
  induction cellsUnder m p with
  | nil => rfl
  | cons c L ih =>
    rw [List.flatMap_cons, List.filter_append, ih, List.filter_cons]
    by_cases h : f c.1
    · rw [if_pos h, List.flatMap_cons]
      congr 1
      rw [List.filter_eq_self]
      intro w hw
      obtain ⟨j, -, rfl⟩ := List.mem_map.1 hw
      exact h
    · rw [if_neg h]
      rw [List.filter_eq_nil_iff.2, List.nil_append]
      intro w hw
      obtain ⟨j, -, rfl⟩ := List.mem_map.1 hw
      exact h

/-- **C79** (exact account) `areas`: one entry for each cell that is not a solid, in the order in which the ids come once those of
solids are left out; undefined if all cells are solids. -/
theorem C79_areas_exact {K : Type} {m : List (MBlock P D)} (hm : MeshTree m) {p : List Nat} (ndim : MBlock P D → Nat)
    (area : MBlock P D → CData D → List K)
    (hid : ∀ b ∈ m, ∀ c, b.cells = some c → c.id.length = c.topo.length)
    (ha : ∀ b ∈ m, ∀ c, b.cells = some c → (area b c).length = c.topo.length) :
    (areasOf ndim area m p = none ↔ ∀ b ∈ m, p <:+ b.path → b.cells.isSome → 3 ≤ ndim b) ∧
    ∀ A, areasOf ndim area m p = some A → ∃ W I, IsWalk m p W ∧ cellIndices m p = some I ∧ I.length = W.length ∧
      (∀ (k : Nat) (b : MBlock P D) (c : CData D) (j : Nat), W[k]? = some ((b, c), j) → I[k]? = c.id[j]?) ∧
      A.length = (W.filter fun w => decide (ndim w.1.1 < 3)).length ∧
      ∀ (k : Nat) (b : MBlock P D) (c : CData D) (j : Nat),
        (W.filter fun w => decide (ndim w.1.1 < 3))[k]? = some ((b, c), j) → A[k]? = (area b c)[j]? := by
  have hnil : (cellsUnder m p).filter (fun c => decide (ndim c.1 < 3)) = [] ↔
      ∀ b ∈ m, p <:+ b.path → b.cells.isSome → 3 ≤ ndim b := by
    rw [List.filter_eq_nil_iff]
    constructor
    · intro h b hb hp hc
      obtain ⟨c, hc⟩ := Option.isSome_iff_exists.1 hc
      have := h (b, c) (mem_cellsUnder.2 ⟨hb, hp, hc⟩)
      simpa using this
    · rintro h ⟨b, c⟩ hc
      obtain ⟨g1, g2, g3⟩ := mem_cellsUnder.1 hc
      have := h b g1 g2 (by rw [g3]; rfl)
      simpa using this
  constructor
  · rw [← hnil]
    unfold areasOf stackAll
    constructor
    · intro h
      split at h
      · rename_i he
        simpa using he
      · cases h
    · intro h
      rw [h]
      rfl
  · intro A hA
    have hne : (cellsUnder m p).filter (fun c => decide (ndim c.1 < 3)) ≠ [] := by
      intro h0
      unfold areasOf at hA
      rw [h0] at hA
      cases hA
    have hL : cellsUnder m p ≠ [] := fun h0 => hne (by rw [h0]; rfl)
    have h2 := stack_walk m p (fun c => c.2.id) fun c hc => by
      obtain ⟨g1, -, g3⟩ := mem_cellsUnder.1 hc; exact hid _ g1 _ g3
    refine ⟨walkOf m p, _, walk_isWalk hm.nodup p, stackAll_map hL _, h2.1, fun k b c j hk => h2.2 k _ j hk, ?_⟩
    unfold areasOf at hA
    rw [stackAll_map hne] at hA
    obtain rfl := Option.some.inj hA
    rw [walkOf_filter m p fun b => decide (ndim b < 3)]
    have hg : ∀ c ∈ (cellsUnder m p).filter (fun c => decide (ndim c.1 < 3)), (area c.1 c.2).length = c.2.topo.length := by
      intro c hc
      obtain ⟨g1, -, g3⟩ := mem_cellsUnder.1 (show (c.1, c.2) ∈ cellsUnder m p from List.mem_of_mem_filter hc)
      exact ha _ g1 _ g3
    generalize (cellsUnder m p).filter (fun c => decide (ndim c.1 < 3)) = L at hg
    have key : (L.flatMap fun c => area c.1 c.2).map some =
        (L.flatMap fun c => (List.range c.2.topo.length).map fun j => (c, j)).map fun w => (area w.1.1 w.1.2)[w.2]? := by
      rw [List.map_flatMap, List.map_flatMap]
      apply List.flatMap_congr
      intro c hc
      apply List.ext_getElem?
      intro i
      rw [List.map_map, List.getElem?_map, List.getElem?_map, ← hg c hc]
      by_cases hi : i < (area c.1 c.2).length
      · rw [List.getElem?_range hi, List.getElem?_eq_getElem hi]
        simp [List.getElem?_eq_getElem hi]
      · rw [List.getElem?_eq_none (by omega), List.getElem?_eq_none (by simpa using hi)]
        rfl
    constructor
    · simpa only [List.length_map] using congrArg List.length key
    · intro k b c j hk
      have h1 := congrArg (fun l => l[k]?) key
      simp only [List.getElem?_map, hk, Option.map_some] at h1
      cases h2 : (L.flatMap fun c => area c.1 c.2)[k]? with
      | none => rw [h2] at h1; cases h1
      | some v => rw [h2] at h1; exact Option.some.inj h1

/-- All points of a block and of the blocks beneath it, one block after the other. -/
def PointsFrom (m : List (MBlock P D)) (s : List Nat) (x : List P) : Prop :=
  x = (m.filterMap fun b => if s <:+ b.path then b.pts.map PData.x else none).flatten

theorem pointsFrom (m : List (MBlock P D)) (s : List Nat) : PointsFrom m s (pointsBeneath m s) := by
  unfold PointsFrom pointsBeneath allPts
  induction m with
  | nil => rfl
  | cons b m ih =>
    rw [List.filter_cons, List.filterMap_cons]
    by_cases h : s <:+ b.path
    · simp only [h, decide_true, if_true, List.filterMap_cons]
      cases hb : b.pts with
      | none => simpa [hb] using ih
      | some q =>
        simp only [Option.map_some, List.flatMap_cons, List.flatten_cons]
        rw [← ih]
    · simp only [h, decide_false, if_false]
      exact ih

/-- **C79** (exact account) what is shown of a block, whatever is beneath it: its cells and those of all blocks beneath it, between
all the points beneath its source, and as a field the values of the points or, without any, those of its own cells. -/
theorem C79_shown_exact {m : List (MBlock P D)} (hm : MeshTree m) {b : MBlock P D} {c : CData D} (hb : b ∈ m)
    (hc : b.cells = some c) {s : MBlock P D} {q : PData P D} (hs : ClosestPts m b.path s q) :
    ∃ T X, topologyOf m b.path = some T ∧ PointsFrom m s.path X ∧ ((∀ n, UsesNode T n → n < X.length) →
      ∃ x t, ShowsCells X T x t ∧ detachBlock .nothing m b c = some (x, t, none) ∧
        (∀ f, q.fields f = none → detachBlock (.field f) m b c = some (x, t, c.fields f)) ∧
        (∀ d : List D, d.length ≠ q.x.length → detachBlock (.array d) m b c = none)) := by
  have hsp := sourcePath_eq hm.nodup hs
  have hpt : ptsAt m s.path = some q := by rw [ptsAt_of_mem hm.nodup hs.mem, hs.pts]
  have hne : cellsUnder m b.path ≠ [] := cellsUnder_ne ⟨b, hb, List.suffix_rfl, by rw [hc]; rfl⟩
  have htop : topologyOf m b.path = some ((cellsUnder m b.path).flatMap fun c => c.2.topo) := stackAll_map hne _
  refine ⟨_, pointsBeneath m s.path, htop, pointsFrom m s.path, fun hr => ?_⟩
  generalize ((cellsUnder m b.path).flatMap fun c => c.2.topo) = T at htop hr
  obtain ⟨x, t, ids, h1, -, -, -, -, h2, h3, h4⟩ := C04_detach (pointsBeneath m s.path) T hr
  have h1' : detachMeshBulk (pointsBeneath m s.path) T = some (x, t) := by
    unfold detach at h1; exact h1
  refine ⟨x, t, ⟨h2, h4, h3⟩, ?_, fun f hf => ?_, fun d hd => ?_⟩
  · simp only [detachBlock, hsp, hpt, htop, Option.bind_some, h1', Option.map_some]
  · simp only [detachBlock, hsp, hpt, htop, Option.bind_some, hf, h1', Option.map_some]
  · simp only [detachBlock, hsp, hpt, htop, Option.bind_some, if_neg hd]

theorem sum_swap {α β : Type} (l : List α) (r : List β) (f : α → β → Nat) :
    (l.map fun a => (r.map fun b => f a b).sum).sum = (r.map fun b => (l.map fun a => f a b).sum).sum := by
  induction l with
  | nil => simp
  | cons a l ih =>
    simp only [List.map_cons, List.sum_cons]
    rw [ih, ← List.sum_map_add]

theorem cellsUnder_sub {m : List (MBlock P D)} {p q : List Nat} (h : p <:+ q) :
    cellsUnder m q = (cellsUnder m p).filter fun c => decide (q <:+ c.1.path) := by
  unfold cellsUnder
  induction m with
  | nil => rfl
  | cons b m ih =>
    rw [List.filter_cons, List.filter_cons]
    by_cases hq : q <:+ b.path
    · have hp : p <:+ b.path := h.trans hq
      simp only [hq, hp, decide_true, if_true, List.filterMap_cons]
      cases hb : b.cells with
      | none => simpa [hb] using ih
      | some c => simp only [Option.map_some, List.filter_cons, hq, decide_true, if_true, ih]
    · by_cases hp : p <:+ b.path
      · simp only [hq, hp, decide_true, decide_false, if_true, List.filterMap_cons]
        cases hb : b.cells with
        | none => simpa [hb] using ih
        | some c => simp only [Option.map_some, List.filter_cons, hq, decide_false]; exact ih
      · simp only [hq, hp, decide_false]
        exact ih

theorem detachBlock_rows {m : List (MBlock P D)} {b : MBlock P D} {c : CData D} {r : List P × Topo × Option (List D)}
    (h : detachBlock .nothing m b c = some r) : r.2.1.length = numberOfCells m b.path := by
  unfold detachBlock at h
  obtain ⟨s, -, h⟩ := Option.bind_eq_some_iff.1 h
  obtain ⟨q, -, h⟩ := Option.bind_eq_some_iff.1 h
  obtain ⟨T, hT, h⟩ := Option.bind_eq_some_iff.1 h
  obtain ⟨⟨x, t⟩, h1, rfl⟩ := Option.map_eq_some_iff.1 h
  unfold detachMeshBulk at h1
  simp only [Option.bind_eq_bind, Option.bind_eq_some_iff] at h1
  obtain ⟨x', -, t', h2, h3⟩ := h1
  obtain ⟨rfl, rfl⟩ := Prod.mk.inj (Option.some.inj h3)
  have := List.Forall₂.length_eq (mapM_eq_some_iff.1 h2)
  rw [← this]
  unfold topologyOf stackAll at hT
  split at hT
  · cases hT
  · obtain rfl := Option.some.inj hT
    rw [List.length_flatten, List.map_map]
    rfl

/-- **C79** (exact account) every cell is shown as often as there are blocks with cells above it, its own included. -/
theorem C79_shown_count {m : List (MBlock P D)} (hm : MeshTree m) {p : List Nat} {l : List (List P × Topo × Option (List D))}
    (h : detachBlocks .nothing m p = some l) : ∃ W, IsWalk m p W ∧ (l.map fun r => r.2.1.length).sum =
      (W.map fun w => (m.filter fun b => b.cells.isSome && decide (p <:+ b.path) && decide (b.path <:+ w.1.1.path)).length).sum := by
  refine ⟨walkOf m p, walk_isWalk hm.nodup p, ?_⟩
  have h1 : l.map (fun r => r.2.1.length) = (cellsUnder m p).map fun c => numberOfCells m c.1.path := by
    unfold detachBlocks at h
    have := mapM_eq_some_iff.1 h
    clear h
    generalize cellsUnder m p = L at this
    induction this with
    | nil => rfl
    | cons h1 h2 ih => rw [List.map_cons, List.map_cons, ih, detachBlock_rows h1]
  have h2 : (cellsUnder m p).map (fun c => numberOfCells m c.1.path) = (cellsUnder m p).map fun c =>
      ((cellsUnder m p).map fun w => if c.1.path <:+ w.1.path then w.2.topo.length else 0).sum := by
    apply List.map_congr_left
    intro c hc
    obtain ⟨g1, g2, g3⟩ := mem_cellsUnder.1 (show (c.1, c.2) ∈ cellsUnder m p from hc)
    unfold numberOfCells
    rw [cellsUnder_sub g2]
    generalize cellsUnder m p = L
    induction L with
    | nil => rfl
    | cons w L ih =>
      rw [List.filter_cons, List.map_cons, List.sum_cons, ← ih]
      by_cases hw : c.1.path <:+ w.1.path <;> simp [hw]
  rw [h1, h2, sum_swap]
  have h3 : ∀ q : List Nat, (m.filter fun b => b.cells.isSome && decide (p <:+ b.path) && decide (b.path <:+ q)).length =
      ((cellsUnder m p).map fun c => if c.1.path <:+ q then 1 else 0).sum := by
    intro q
    unfold cellsUnder
    clear h1 h2 h hm
    induction m with
    | nil => rfl
    | cons b m ih =>
      rw [List.filter_cons, List.filter_cons]
      by_cases hp : p <:+ b.path
      · simp only [hp, decide_true, if_true, List.filterMap_cons, Bool.and_true]
        simp only [Bool.and_assoc] at ih
        cases hb : b.cells with
        | none => simpa [hb, Bool.and_assoc] using ih
        | some c =>
          by_cases hq : b.path <:+ q
          · simp only [Option.isSome_some, hq, decide_true, Bool.and_self, if_true, List.length_cons, Option.map_some, List.map_cons, List.sum_cons,
              Bool.and_assoc, ih]
            omega
          · simp only [Option.isSome_some, hq, decide_false, Bool.and_false, Option.map_some, List.map_cons, List.sum_cons,
              Bool.and_assoc, if_false, Nat.zero_add]
            exact ih
      · simp only [hp, decide_false, Bool.and_false, Bool.false_and]
        exact ih
  have h4 : (walkOf m p).map (fun w => (m.filter fun b => b.cells.isSome && decide (p <:+ b.path) && decide (b.path <:+ w.1.1.path)).length) =
      (cellsUnder m p).flatMap fun c => List.replicate c.2.topo.length
        ((cellsUnder m p).map fun c' => if c'.1.path <:+ c.1.path then 1 else 0).sum := by
    unfold walkOf
    rw [List.map_flatMap]
    apply List.flatMap_congr
    intro c hc
    rw [List.map_map]
    apply List.ext_getElem
    · simp
    · intro i hi hi'
      simp [h3]
  rw [h4, List.flatMap_def, List.sum_flatten, List.map_map]
  congr 1
  apply List.map_congr_left
  intro c hc
  rw [Function.comp_apply, List.sum_replicate, smul_eq_mul, ← List.sum_map_mul_left]
  congr 1
  apply List.map_congr_left
  intro c' hc'
  split <;> simp

end

/-- A block of one cell with another of one cell beneath it: three cells are shown, the second twice. -/
example : (detachBlocks .nothing nestedMesh []).map (fun l => l.map fun r => r.2.1.length) = some [2, 1] := by decide +kernel

section
variable {K D : Type} [Field K]

/-- **C79** (exact account) `centers`, whatever is beneath the block: the nodes of all cells are looked up among all the points
beneath the source of the block the call is made on, one block after the other. -/
theorem C79_centers_exact {m : List (MBlock (V3 K) D)} (hm : MeshTree m) {p : List Nat}
    (hne : ∃ b ∈ m, p <:+ b.path ∧ b.cells.isSome) {s : MBlock (V3 K) D} {q : PData (V3 K) D} (hs : ClosestPts m p s q)
    {X : List (V3 K)} (hX : PointsFrom m s.path X) :
    ((∃ b ∈ m, p <:+ b.path ∧ ∃ c, b.cells = some c ∧ ∃ n ∈ c.topo.flatten, X.length ≤ n) → centersOf m p = none) ∧
    ((∀ b ∈ m, p <:+ b.path → ∀ c, b.cells = some c → ∀ n ∈ c.topo.flatten, n < X.length) →
      ∃ W C, IsWalk m p W ∧ centersOf m p = some C ∧ C.length = W.length ∧
        ∀ (k : Nat) (b : MBlock (V3 K) D) (c : CData D) (j : Nat), W[k]? = some ((b, c), j) →
          ∃ (row : List Nat) (z : V3 K), c.topo[j]? = some row ∧ C[k]? = some z ∧ MeanOfRow X row z) := by
  have hx : pointsBeneath m s.path = X := (pointsFrom m s.path).trans hX.symm
  have hL := cellsUnder_ne hne
  constructor
  · rintro ⟨b, hb, hp, c, hc, n, hn, hlt⟩
    obtain ⟨row, hrow, hn⟩ := List.mem_flatten.1 hn
    unfold centersOf
    rw [sourcePath_eq hm.nodup hs, Option.bind_some, hx]
    rw [mapM_none (a := (b, c)) (mem_cellsUnder.2 ⟨hb, hp, hc⟩)]
    · rfl
    · refine mapM_none hrow ?_
      rw [show gather? X row = none from mapM_none hn (List.getElem?_eq_none_iff.2 hlt)]
      rfl
  · intro hr
    have hgath : ∀ c ∈ cellsUnder m p, ∀ row ∈ c.2.topo, ∃ pts, gather? X row = some pts := by
      intro c hc row hrow
      obtain ⟨g1, g2, g3⟩ := mem_cellsUnder.1 (show (c.1, c.2) ∈ cellsUnder m p from hc)
      obtain ⟨pts, h1, -⟩ := gather?_eq_some (a := X) (inds := row) fun i hi =>
        hr _ g1 g2 _ g3 i (List.mem_flatten.2 ⟨row, hrow, hi⟩)
      exact ⟨pts, h1⟩
    let f : List Nat → V3 K := fun row => meshCenter ((gather? X row).getD [])
    have hC : centersOf m p = some ((cellsUnder m p).flatMap fun c => c.2.topo.map f) := by
      unfold centersOf
      rw [sourcePath_eq hm.nodup hs, Option.bind_some, hx]
      rw [mapM_some (g := fun c : MBlock (V3 K) D × CData D => c.2.topo.map f), Option.bind_some, stackAll_map hL]
      intro c hc
      apply mapM_some
      intro row hrow
      obtain ⟨pts, h1⟩ := hgath c hc row hrow
      simp only [f, h1, Option.map_some, Option.getD_some]
    have h1 := stack_walk m p (fun c => c.2.topo.map f) fun c _ => by simp
    refine ⟨walkOf m p, _, walk_isWalk hm.nodup p, hC, h1.1, fun k b c j hk => ?_⟩
    obtain ⟨g1, g2, g3, g4⟩ := ((walk_isWalk hm.nodup p).mem b c j).1 (List.mem_of_getElem? hk)
    have hrow : c.topo[j]? = some c.topo[j] := List.getElem?_eq_getElem g4
    refine ⟨c.topo[j], f c.topo[j], hrow, by rw [h1.2 k _ j hk, List.getElem?_map, hrow]; rfl, ?_⟩
    obtain ⟨pts, e1, e2, e3⟩ := gather?_eq_some (a := X) (inds := c.topo[j]) fun i hi =>
      hr _ g1 g2 _ g3 i (List.mem_flatten.2 ⟨_, List.getElem_mem g4, hi⟩)
    refine ⟨pts, e2, fun i n hin => e3 i n hin, ?_⟩
    simp only [f, e1, Option.getD_some, meshCenter, e2]

end

/-- The cells of the nested block, whose own points are around (5, 0, 0): called on the root, their centres are those of points of
the root; called on the block, they are right. -/
example : centersOf (demoMesh (Fr.ambient : Fr (V3 ℚ))) [] = some [⟨1, 1, 0⟩, ⟨1/3, 1/3, 0⟩, ⟨1/3, 1/3, 0⟩] ∧
    centersOf (demoMesh (Fr.ambient : Fr (V3 ℚ))) [0] = some [⟨16/3, 1/3, 0⟩, ⟨16/3, 1/3, 0⟩] := by decide +kernel

/-! ## detached meshes -/

section
variable {P D : Type}

theorem detachBeneath_ids {h : Nat} {p : List Nat} (m : List (HBlock D)) : ∀ next : Nat,
    ∃ n, ((detachBeneath h p next m).flatMap fun b => (b.cells.map CData.id).getD []) = List.range' next n ∧
      n = ((detachBeneath h p next m).map fun b => (b.cells.map fun c => c.topo.length).getD 0).sum := by
  induction m with
  | nil => exact fun next => ⟨0, rfl, rfl⟩
  | cons b m ih =>
    intro next
    unfold detachBeneath
    split
    · exact ih next
    · rename_i c hc
      split
      · obtain ⟨n, h1, h2⟩ := ih (next + c.topo.length)
        refine ⟨c.topo.length + n, ?_, ?_⟩
        · rw [List.flatMap_cons, h1]
          simp
        · rw [List.map_cons, List.sum_cons, ← h2]
          rfl
      · exact ih next

/-- **C80** (exact account) the ids of cells in a detached mesh: the cells of the block keep theirs, those of the blocks beneath are
numbered from 0 on, one block after the other. -/
theorem C80_ids_exact {st st' : List (PData P D)} {m m' : List (HBlock D)} {p : List Nat} (h : detachMesh st m p = some (st', m')) :
    ∃ r rest n, m' = r :: rest ∧ r.path = [] ∧
      r.cells = (m.find? fun b => b.path = p).bind HBlock.cells ∧
      (rest.flatMap fun b => (b.cells.map CData.id).getD []) = List.range n ∧
      n = (rest.map fun b => (b.cells.map fun c => c.topo.length).getD 0).sum ∧
      ((m'.flatMap fun b => (b.cells.map CData.id).getD []).Nodup ↔
        ((r.cells.map CData.id).getD []).Nodup ∧ ∀ i ∈ (r.cells.map CData.id).getD [], n ≤ i) := by
  unfold detachMesh at h
  obtain ⟨k, hk, h⟩ := Option.bind_eq_some_iff.1 h
  obtain ⟨q, hq, h⟩ := Option.map_eq_some_iff.1 h
  obtain ⟨rfl, rfl⟩ := Prod.mk.inj h
  obtain ⟨n, h1, h2⟩ := detachBeneath_ids (h := k) (p := p) m 0
  rw [← List.range_eq_range'] at h1
  refine ⟨_, _, n, rfl, rfl, rfl, h1, h2, ?_⟩
  rw [List.flatMap_cons, h1, List.nodup_append]
  constructor
  · rintro ⟨a, -, b⟩
    refine ⟨a, fun i hi => ?_⟩
    by_contra hlt
    exact b i hi i (List.mem_range.2 (by omega)) rfl
  · rintro ⟨a, b⟩
    refine ⟨a, List.nodup_range, fun i hi j hj e => ?_⟩
    have := b i hi
    have := List.mem_range.1 hj
    omega

/-- **C80** (exact account) what `detach` does to the points: those of the source are numbered from 0 on, with their coordinates and
fields as they were, and all other points stay as they were. -/
theorem C80_original_exact {st st' : List (PData P D)} {m m' : List (HBlock D)} {p : List Nat} (h : detachMesh st m p = some (st', m')) :
    ∃ k q, sourceRef m p = some k ∧ st[k]? = some q ∧ st'.length = st.length ∧
      st'[k]? = some ⟨q.x, List.range q.x.length, q.fields⟩ ∧ ∀ i, i ≠ k → st'[i]? = st[i]? := by
  unfold detachMesh at h
  obtain ⟨k, hk, h⟩ := Option.bind_eq_some_iff.1 h
  obtain ⟨q, hq, h⟩ := Option.map_eq_some_iff.1 h
  obtain ⟨rfl, rfl⟩ := Prod.mk.inj h
  have hkl := (List.getElem?_eq_some_iff.1 hq).1
  exact ⟨k, q, hk, hq, List.length_set, List.getElem?_set_self hkl, fun i hi => List.getElem?_set_ne (Ne.symm hi)⟩

end

end PM
