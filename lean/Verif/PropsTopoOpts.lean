import Verif.TopoOpts
import Verif.PropsCsrTopo

/-!
# C130: the options of `cells_at_nodes` and `nodal_adjacency`
-/

namespace PM

/-- A container holds a topology. -/
def Holds (topo : Topo) : TopoStore → Prop
  | .dense t => t = topo
  | .jagged t => t = topo
  | .csr c => IsCsr topo c

/-- The formats other than the padded arrays. -/
def canFormats : List String := ["csr", "csr-scipy", "scipy-csr", "dicts", "jagged"]

/-- `mx` is the largest number of a node. -/
structure Largest (topo : Topo) (mx : Nat) : Prop where
  used : UsesNode topo mx
  max : ∀ n, UsesNode topo n → n ≤ mx

/-! ## padded arrays -/

/-- What is behind the slots in use. -/
def PadInv (count : List Nat) (reg : List (List Nat)) : Prop :=
  ∀ (n c : Nat) (row : List Nat), count[n]? = some c → reg[n]? = some row → ∀ i, c ≤ i → i < row.length → row[i]? = some 0

theorem set2?_pad {count : List Nat} {reg reg' : List (List Nat)} {n c v : Nat} (hc : count[n]? = some c) (h : PadInv count reg)
    (hs : set2? reg n c v = some reg') : PadInv (count.set n (c + 1)) reg' := by
  unfold set2? at hs
  cases hr : reg[n]? with
  | none => rw [hr] at hs; cases hs
  | some row =>
    rw [hr] at hs
    simp only at hs
    split at hs
    · rename_i hlt
      obtain rfl := Option.some.inj hs
      intro k c' row' h1 h2 i hi hil
      by_cases hk : k = n
      · subst hk
        have l1 : k < count.length := (List.getElem?_eq_some_iff.1 hc).1
        have l2 : k < reg.length := (List.getElem?_eq_some_iff.1 hr).1
        rw [List.getElem?_set_self l1] at h1
        rw [List.getElem?_set_self l2] at h2
        obtain rfl := Option.some.inj h1
        obtain rfl := Option.some.inj h2
        rw [List.getElem?_set_ne (by omega)]
        exact h k c row hc hr i (by omega) (by simpa using hil)
      · rw [List.getElem?_set_ne (Ne.symm hk)] at h1 h2
        exact h k c' row' h1 h2 i hi hil
    · cases hs

theorem slotStep_pad {s s' : Slots} {e : Entry} (h1 : PadInv s.count s.ereg) (h2 : PadInv s.count s.nreg) (hs : slotStep s e = some s') :
    PadInv s'.count s'.ereg ∧ PadInv s'.count s'.nreg := by
  unfold slotStep at hs
  cases hc : s.count[e.node]? with
  | none => simp [hc] at hs
  | some c =>
    cases he : set2? s.ereg e.node c e.cell with
    | none => simp [hc, he] at hs
    | some er =>
      cases hn : set2? s.nreg e.node c e.pos with
      | none => simp [hc, he, hn] at hs
      | some nr =>
        have hl : e.node < s.count.length := (List.getElem?_eq_some_iff.1 hc).1
        have h4 : s.count[e.node] = c := by
          rw [List.getElem?_eq_getElem hl] at hc; exact Option.some.inj hc
        simp only [hc, he, hn, incr?_some hl, h4, Option.bind_eq_bind, Option.bind_some, Option.pure_def, Option.some.injEq] at hs
        subst hs
        exact ⟨set2?_pad hc h1 he, set2?_pad hc h2 hn⟩

theorem slotFold_pad {q : List Entry} {s s' : Slots} (h1 : PadInv s.count s.ereg) (h2 : PadInv s.count s.nreg)
    (hs : q.foldlM slotStep s = some s') : PadInv s'.count s'.ereg ∧ PadInv s'.count s'.nreg := by
  induction q generalizing s with
  | nil =>
    obtain rfl := Option.some.inj hs
    exact ⟨h1, h2⟩
  | cons e q ih =>
    rw [List.foldlM_cons] at hs
    cases h : slotStep s e with
    | none => rw [h] at hs; cases hs
    | some s1 =>
      rw [h] at hs
      obtain ⟨a, b⟩ := slotStep_pad h1 h2 h
      exact ih a b hs

/-- A row filled up with zeros. -/
def zeroPad (w : Nat) (l : List Nat) : List Nat := l ++ List.replicate (w - l.length) 0

theorem eq_zeroPad {w : Nat} {row l : List Nat} (hl : row.length = w) (hle : l.length ≤ w) (ht : row.take l.length = l)
    (hz : ∀ i, l.length ≤ i → i < row.length → row[i]? = some 0) : row = zeroPad w l := by
  rw [← List.take_append_drop l.length row, ht, zeroPad]
  congr 1
  apply List.ext_getElem?
  intro i
  rw [List.getElem?_drop, List.getElem?_replicate]
  split
  · exact hz _ (by omega) (by omega)
  · exact List.getElem?_eq_none (by omega)

/-- The padded arrays of a topology. -/
def slotsOf (topo : Topo) (mx w : Nat) : Slots :=
  ⟨(List.range (mx + 1)).map fun n => (atNode (entriesOf topo) n).length,
    (List.range (mx + 1)).map fun n => zeroPad w ((atNode (entriesOf topo) n).map Entry.cell),
    (List.range (mx + 1)).map fun n => zeroPad w ((atNode (entriesOf topo) n).map Entry.pos)⟩

theorem cellsAtNodesReg_closed {topo : Topo} {mx : Nat} (h : maxNode? topo.flatten = some mx) :
    ∃ w, cellsAtNodesReg topo = some (slotsOf topo mx w) ∧ (∀ n, n ≤ mx → (atNode (entriesOf topo) n).length ≤ w) ∧
      ∃ n, n ≤ mx ∧ (atNode (entriesOf topo) n).length = w := by
  have hm := maxNode?_spec.1 h
  obtain ⟨r, hr, hl, hg⟩ := countCellsAtNodesReg_spec h
  obtain ⟨cmax, hcm⟩ := maxNode?_ne_none (l := r) (by
    intro h0; rw [h0] at hl; simp at hl)
  have hcm' := maxNode?_spec.1 hcm
  have hr' : ∀ n, n ≤ mx → r[n]? = some (atNode (entriesOf topo) n).length := by
    intro n hn
    rw [length_atNode, entriesOf_map_node]
    exact hg n (by omega)
  have hbound : ∀ n, n ≤ mx → (atNode (entriesOf topo) n).length ≤ cmax := fun n hn =>
    hcm'.2 _ (List.mem_of_getElem? (hr' n hn))
  obtain ⟨s, cmax', hs, hi⟩ := cellsAtNodesReg_spec h
  have hfold : (entriesOf topo).foldlM slotStep ⟨List.replicate (mx + 1) 0, List.replicate (mx + 1) (List.replicate cmax 0),
      List.replicate (mx + 1) (List.replicate cmax 0)⟩ = some s := by
    rw [← hs]; simp [cellsAtNodesReg, h, hr, hcm]
  obtain ⟨s2, hs2, hi2⟩ := slotFold_inv (N := mx + 1) (cmax := cmax) (p := []) (q := entriesOf topo)
    (s := ⟨List.replicate (mx + 1) 0, List.replicate (mx + 1) (List.replicate cmax 0),
      List.replicate (mx + 1) (List.replicate cmax 0)⟩)
    ⟨by simp, by simp, by simp,
      by intro n hn; simp [atNode, hn],
      by intro n hn; exact ⟨List.replicate cmax 0, by simp [hn], by simp, by simp [atNode]⟩,
      by intro n hn; exact ⟨List.replicate cmax 0, by simp [hn], by simp, by simp [atNode]⟩⟩
    (by
      intro e he
      exact Nat.lt_succ_of_le (hm.2 _ (mem_flatten_of_nodeAt (mem_entriesOf.1 he))))
    (by
      intro n hn
      simpa using hbound n (by omega))
  rw [hfold] at hs2
  obtain rfl := Option.some.inj hs2
  have hi : SlotInv (mx + 1) cmax (entriesOf topo) s := by simpa using hi2
  have hz : PadInv (List.replicate (mx + 1) 0) (List.replicate (mx + 1) (List.replicate cmax 0)) := by
    intro n c row _ h2 i _ hil
    rw [List.getElem?_replicate] at h2
    split at h2
    · obtain rfl := Option.some.inj h2
      rw [List.length_replicate] at hil
      rw [List.getElem?_replicate, if_pos hil]
    · cases h2
  obtain ⟨p1, p2⟩ := slotFold_pad (s := ⟨_, _, _⟩) hz hz hfold
  refine ⟨cmax, ?_, hbound, ?_⟩
  · rw [hs]
    congr 1
    cases s with
    | mk count ereg nreg =>
      have e1 : count = (List.range (mx + 1)).map fun n => (atNode (entriesOf topo) n).length := by
        apply List.ext_getElem?
        intro n
        by_cases hn : n < mx + 1
        · rw [hi.hc n hn]; simp [hn]
        · rw [List.getElem?_eq_none (by have := hi.lc; simp only at this; omega), List.getElem?_eq_none (by simp; omega)]
      have e2 : ereg = (List.range (mx + 1)).map fun n => zeroPad cmax ((atNode (entriesOf topo) n).map Entry.cell) := by
        apply List.ext_getElem?
        intro n
        by_cases hn : n < mx + 1
        · obtain ⟨er, h1, h2, h3⟩ := hi.he n hn
          simp only at h1
          rw [h1]
          simp only [List.getElem?_map, List.getElem?_range hn, Option.map_some, Option.some.injEq]
          refine eq_zeroPad h2 (by simpa using hbound n (by omega)) (by simpa using h3) fun i hil hir => ?_
          exact p1 n _ er (hi.hc n hn) h1 i (by simpa using hil) hir
        · rw [List.getElem?_eq_none (by have := hi.le; simp only at this; omega), List.getElem?_eq_none (by simp; omega)]
      have e3 : nreg = (List.range (mx + 1)).map fun n => zeroPad cmax ((atNode (entriesOf topo) n).map Entry.pos) := by
        apply List.ext_getElem?
        intro n
        by_cases hn : n < mx + 1
        · obtain ⟨er, h1, h2, h3⟩ := hi.hn n hn
          simp only at h1
          rw [h1]
          simp only [List.getElem?_map, List.getElem?_range hn, Option.map_some, Option.some.injEq]
          refine eq_zeroPad h2 (by simpa using hbound n (by omega)) (by simpa using h3) fun i hil hir => ?_
          exact p2 n _ er (hi.hc n hn) h1 i (by simpa using hil) hir
        · rw [List.getElem?_eq_none (by have := hi.ln; simp only at this; omega), List.getElem?_eq_none (by simp; omega)]
      rw [slotsOf, ← e1, ← e2, ← e3]
  · obtain ⟨n, hn, he⟩ := List.mem_iff_getElem.1 hcm'.1
    refine ⟨n, by omega, ?_⟩
    have := hr' n (by omega)
    rw [List.getElem?_eq_getElem hn, he] at this
    exact (Option.some.inj this).symm

/-! ## containers -/

theorem Holds.regular {topo : Topo} {t : TopoStore} (h : Holds topo t) : t.regular? = isRegular topo := by
  cases t with
  | dense t => cases h; rfl
  | jagged t => cases h; rfl
  | csr c => exact IsCsr.isRegular h

theorem Holds.slots {topo : Topo} {t : TopoStore} (h : Holds topo t) : t.slots = cellsAtNodesReg topo := by
  cases t with
  | dense t => cases h; rfl
  | jagged t => cases h; rfl
  | csr c => exact IsCsr.cellsAtNodes h

theorem Holds.cells {topo : Topo} {t : TopoStore} (h : Holds topo t) : t.cells = topo.length := by
  cases t with
  | dense t => cases h; rfl
  | jagged t => cases h; rfl
  | csr c => show c.indptr.length - 1 = topo.length; rw [IsCsr.len h]; rfl

theorem Holds.regularized {topo : Topo} {t : TopoStore} (h : Holds topo t) :
    Holds (regularize topo).1 t.regularized.1 ∧ t.regularized.2 = npUnique topo.flatten := by
  cases t with
  | dense t => cases h; exact ⟨rfl, rfl⟩
  | jagged t => cases h; exact ⟨rfl, rfl⟩
  | csr c => exact ⟨IsCsr.regularize h, by show npUnique c.data = _; rw [IsCsr.data h]⟩

theorem Largest.maxNode {topo : Topo} {mx : Nat} (h : Largest topo mx) : maxNode? topo.flatten = some mx := by
  have huse : ∀ n, UsesNode topo n ↔ n ∈ topo.flatten := by
    intro n; simp [UsesNode, List.mem_flatten]
  exact maxNode?_spec.2 ⟨(huse _).1 h.used, fun x hx => h.max x ((huse _).2 hx)⟩

/-- Without gaps, or if this is assumed, the topology is used as it is. -/
theorem canPrepare_plain {topo : Topo} {t : TopoStore} {mx : Nat} (ht : Holds topo t) (hm : Largest topo mx) {assume : Bool}
    (ha : assume = true ∨ ∀ n, n ≤ mx → UsesNode topo n) (dicts : Bool) : canPrepare dicts assume t = .ok (t, none) := by
  unfold canPrepare
  split
  · rfl
  · rename_i hf
    rcases ha with ha | ha
    · exact absurd ha hf
    · rw [ht.regular, ((C02_isRegular topo).2).2 ⟨mx, fun n => ⟨hm.max n, ha n⟩⟩]

theorem call_plain {topo : Topo} {t : TopoStore} {mx : Nat} (ht : Holds topo t) (hm : Largest topo mx) {assume : Bool}
    (ha : assume = true ∨ ∀ n, n ≤ mx → UsesNode topo n) {frmt : Option String} (counts : Bool) {cellIDs : Option (List Nat)}
    (hf : cellIDs = none ∨ frmt = some "dicts") : ∃ w, cellsAtNodesReg topo = some (slotsOf topo mx w) ∧
      (∀ n, n ≤ mx → (atNode (entriesOf topo) n).length ≤ w) ∧ (∃ n, n ≤ mx ∧ (atNode (entriesOf topo) n).length = w) ∧
      cellsAtNodesCall frmt assume counts cellIDs t =
        match canFormat frmt counts cellIDs topo.length none (slotsOf topo mx w) with
        | some a => .ok a
        | none => .error .value := by
  obtain ⟨w, h1, h2, h3⟩ := cellsAtNodesReg_closed hm.maxNode
  refine ⟨w, h1, h2, h3, ?_⟩
  unfold cellsAtNodesCall
  rw [if_neg (by rcases hf with rfl | rfl <;> simp), canPrepare_plain ht hm ha]
  show (match t.slots.bind (canFormat frmt counts cellIDs t.cells none) with
    | some a => Except.ok a
    | none => Except.error TopoErr.value) = _
  rw [ht.slots, h1, ht.cells]
  rfl

/-- The incidences of a node, padded, in the places of the arrays. -/
theorem slotsOf_get (topo : Topo) (mx w n : Nat) (hn : n ≤ mx) : ∃ ps, IncidenceList topo n ps ∧
    ps.length = (atNode (entriesOf topo) n).length ∧ (slotsOf topo mx w).count[n]? = some ps.length ∧
    (slotsOf topo mx w).ereg[n]? = some (ps.map Prod.fst ++ List.replicate (w - ps.length) 0) ∧
    (slotsOf topo mx w).nreg[n]? = some (ps.map Prod.snd ++ List.replicate (w - ps.length) 0) := by
  have hn' : n < mx + 1 := by omega
  refine ⟨_, incidence_atNode topo n, by simp, ?_, ?_, ?_⟩
  · simp [slotsOf, hn']
  · simp [slotsOf, hn', zeroPad, Function.comp_def]
  · simp [slotsOf, hn', zeroPad, Function.comp_def]

/-- **C130** without a format, or with one that is not known ("raw" is one), the padded arrays are returned, with or without
`return_counts`: row `n` starts with the cells (places) of node `n`, zeros follow, and the width is the largest number of cells at a node. -/
theorem C130_raw {topo : Topo} {t : TopoStore} {mx : Nat} (ht : Holds topo t) (hm : Largest topo mx) {assume : Bool}
    (ha : assume = true ∨ ∀ n, n ≤ mx → UsesNode topo n) {frmt : Option String} (hf : ∀ f ∈ canFormats, frmt ≠ some f) (counts : Bool) :
    ∃ s w, cellsAtNodesCall frmt assume counts none t = .ok (.raw s) ∧ s.count.length = mx + 1 ∧ s.ereg.length = mx + 1 ∧
      s.nreg.length = mx + 1 ∧ (∀ n, n ≤ mx → ∃ ps, IncidenceList topo n ps ∧ ps.length ≤ w ∧ s.count[n]? = some ps.length ∧
        s.ereg[n]? = some (ps.map Prod.fst ++ List.replicate (w - ps.length) 0) ∧
        s.nreg[n]? = some (ps.map Prod.snd ++ List.replicate (w - ps.length) 0)) ∧
      ∃ n ps, n ≤ mx ∧ IncidenceList topo n ps ∧ ps.length = w := by
  obtain ⟨w, -, h2, ⟨n, hn, h3⟩, h4⟩ := call_plain ht hm ha (frmt := frmt) counts (cellIDs := none) (Or.inl rfl)
  refine ⟨slotsOf topo mx w, w, ?_, by simp [slotsOf], by simp [slotsOf], by simp [slotsOf], ?_, n, _, hn, incidence_atNode topo n, by simpa using h3⟩
  · rw [h4]
    have : canFormat frmt counts none topo.length none (slotsOf topo mx w) = some (.raw (slotsOf topo mx w)) := by
      cases frmt with
      | none => rfl
      | some f =>
        simp only [canFormats, List.mem_cons, List.not_mem_nil, or_false, ne_eq, Option.some.injEq, forall_eq_or_imp, forall_eq] at hf
        obtain ⟨g1, g2, g3, g4, g5⟩ := hf
        unfold canFormat
        simp only [Option.getD_some]
    rw [this]
  · intro n hn
    obtain ⟨ps, g1, g2, g3⟩ := slotsOf_get topo mx w n hn
    exact ⟨ps, g1, by rw [g2]; exact h2 n hn, g3⟩

theorem slotsOf_trim (topo : Topo) (mx w : Nat) :
    trimRows (slotsOf topo mx w).count (slotsOf topo mx w).ereg =
      ((List.range (mx + 1)).map fun n => (atNode (entriesOf topo) n).map Entry.cell) ∧
    trimRows (slotsOf topo mx w).count (slotsOf topo mx w).nreg =
      ((List.range (mx + 1)).map fun n => (atNode (entriesOf topo) n).map Entry.pos) := by
  constructor
  · apply List.ext_getElem?
    intro n
    by_cases hn : n < mx + 1
    · simp [trimRows, slotsOf, hn, zeroPad]
    · rw [List.getElem?_eq_none (by simp [trimRows, slotsOf]; omega), List.getElem?_eq_none (by simp; omega)]
  · apply List.ext_getElem?
    intro n
    by_cases hn : n < mx + 1
    · simp [trimRows, slotsOf, hn, zeroPad]
    · rw [List.getElem?_eq_none (by simp [trimRows, slotsOf]; omega), List.getElem?_eq_none (by simp; omega)]

theorem slotsOf_lengths (topo : Topo) (mx w : Nat) :
    (trimRows (slotsOf topo mx w).count (slotsOf topo mx w).ereg).map List.length = (slotsOf topo mx w).count ∧
    (trimRows (slotsOf topo mx w).count (slotsOf topo mx w).nreg).map List.length = (slotsOf topo mx w).count := by
  rw [(slotsOf_trim topo mx w).1, (slotsOf_trim topo mx w).2]
  constructor <;> simp [slotsOf, Function.comp_def]

/-- The rows of cells and of places, one for every node up to the largest. -/
structure NodeRows (topo : Topo) (mx : Nat) (E N : List (List Nat)) : Prop where
  lenE : E.length = mx + 1
  lenN : N.length = mx + 1
  rows : ∀ n, n ≤ mx → ∃ ps, IncidenceList topo n ps ∧ E[n]? = some (ps.map Prod.fst) ∧ N[n]? = some (ps.map Prod.snd)

theorem nodeRows_trim (topo : Topo) (mx w : Nat) :
    NodeRows topo mx (trimRows (slotsOf topo mx w).count (slotsOf topo mx w).ereg) (trimRows (slotsOf topo mx w).count (slotsOf topo mx w).nreg) := by
  rw [(slotsOf_trim topo mx w).1, (slotsOf_trim topo mx w).2]
  refine ⟨by simp, by simp, fun n hn => ⟨_, incidence_atNode topo n, ?_, ?_⟩⟩
  · simp [show n < mx + 1 by omega, Function.comp_def]
  · simp [show n < mx + 1 by omega, Function.comp_def]

theorem entries_le_last {topo : Topo} {c : Nat} (hl : ∀ (c' : Nat) (row : List Nat), c < c' → topo[c']? = some row → row = []) {e : Entry}
    (he : e ∈ entriesOf topo) : e.cell ≤ c := by
  have h := mem_entriesOf.1 he
  by_contra hc
  unfold nodeAt at h
  cases hr : topo[e.cell]? with
  | none => simp [hr] at h
  | some row =>
    obtain rfl := hl e.cell row (by omega) hr
    simp [hr] at h

theorem max_ereg {topo : Topo} {mx w c : Nat} {row : List Nat} (hm : Largest topo mx) (hr : topo[c]? = some row) (hne : row ≠ [])
    (hl : ∀ (c' : Nat) (row : List Nat), c < c' → topo[c']? = some row → row = []) : maxNode? (slotsOf topo mx w).ereg.flatten = some c := by
  rw [maxNode?_spec]
  constructor
  · obtain ⟨n, hn⟩ := List.exists_mem_of_ne_nil _ hne
    obtain ⟨j, hj, he⟩ := List.mem_iff_getElem.1 hn
    have hnode : nodeAt topo c j = some n := by
      simp [nodeAt, hr, List.getElem?_eq_getElem hj, he]
    have hle : n ≤ mx := hm.max n ⟨row, List.mem_of_getElem? hr, hn⟩
    have hmem : (⟨c, j, n⟩ : Entry) ∈ atNode (entriesOf topo) n := by
      simp only [atNode, List.mem_filter, beq_iff_eq, and_true]
      exact mem_entriesOf.2 hnode
    refine List.mem_flatten.2 ⟨zeroPad w ((atNode (entriesOf topo) n).map Entry.cell), List.mem_map.2 ⟨n, List.mem_range.2 (by omega), rfl⟩, ?_⟩
    exact List.mem_append_left _ (List.mem_map.2 ⟨_, hmem, rfl⟩)
  · intro x hx
    obtain ⟨r, hr, hx⟩ := List.mem_flatten.1 hx
    obtain ⟨n, -, rfl⟩ := List.mem_map.1 hr
    rcases List.mem_append.1 hx with hx | hx
    · obtain ⟨e, he, rfl⟩ := List.mem_map.1 hx
      exact entries_le_last hl (List.mem_filter.1 he).1
    · rw [(List.mem_replicate.1 hx).2]
      exact Nat.zero_le _

/-- The last cell with nodes. -/
theorem exists_last {topo : Topo} {n : Nat} (h : UsesNode topo n) : ∃ (c : Nat) (row : List Nat), topo[c]? = some row ∧ row ≠ [] ∧
    ∀ (c' : Nat) (row : List Nat), c < c' → topo[c']? = some row → row = [] := by
  induction topo using List.reverseRecOn with
  | nil => obtain ⟨r, hr, -⟩ := h; cases hr
  | append_singleton l r ih =>
    by_cases hr : r = []
    · subst hr
      obtain ⟨c, row, h1, h2, h3⟩ := ih (by
        obtain ⟨q, hq, hn⟩ := h
        rcases List.mem_append.1 hq with hq | hq
        · exact ⟨q, hq, hn⟩
        · rw [List.mem_singleton.1 hq] at hn; cases hn)
      have hc : c < l.length := (List.getElem?_eq_some_iff.1 h1).1
      refine ⟨c, row, by rw [List.getElem?_append_left hc, h1], h2, fun c' row' hlt h' => ?_⟩
      by_cases hc' : c' < l.length
      · rw [List.getElem?_append_left hc'] at h'
        exact h3 c' row' hlt h'
      · rw [List.getElem?_append_right (by omega)] at h'
        exact List.mem_singleton.1 (List.mem_of_getElem? h')
    · refine ⟨l.length, r, by simp, hr, fun c' row' hlt h' => ?_⟩
      have := (List.getElem?_eq_some_iff.1 h').1
      simp at this
      omega

theorem isCsr_flatten (rows : List (List Nat)) : IsCsr rows ⟨rows.flatten, indptrOf (rows.map List.length)⟩ := by
  have hlen : ∀ (l : List Nat) (k : Nat), (cumsumFrom k l).length = l.length + 1 := by
    intro l
    induction l with
    | nil => intro k; rfl
    | cons a l ih => intro k; simp [cumsumFrom, ih]
  refine ⟨rfl, by simp [indptrOf, hlen], fun i hi => ?_⟩
  have : ∀ (rows : List (List Nat)) (k i : Nat), i ≤ rows.length →
      (cumsumFrom k (rows.map List.length))[i]? = some (k + (rows.take i).flatten.length) := by
    intro rows
    induction rows with
    | nil => intro k i hi; obtain rfl : i = 0 := by simpa using hi
             simp [cumsumFrom]
    | cons r rows ih =>
      intro k i hi
      cases i with
      | zero => simp [cumsumFrom]
      | succ i =>
        simp only [List.map_cons, cumsumFrom, List.getElem?_cons_succ]
        rw [ih _ i (by simpa using hi)]
        simp only [List.take_succ_cons, List.flatten_cons, List.length_append, Option.some.injEq]
        omega
  simpa [indptrOf] using this rows 0 i hi

/-- The numbers of cells at the nodes, if they were asked for. -/
def askedCounts (ask : Bool) (E : List (List Nat)) : Option (List Nat) := if ask then some (E.map List.length) else none

/-- **C130** as a csr matrix: row `n` has the cells of node `n` as columns and the places as values. There are as many rows as nodes up to
the largest, and columns up to the last cell that has nodes. "csr" is the matrix for compiled code, the other two names are scipy's. -/
theorem C130_csr {topo : Topo} {t : TopoStore} {mx : Nat} (ht : Holds topo t) (hm : Largest topo mx) {assume : Bool}
    (ha : assume = true ∨ ∀ n, n ≤ mx → UsesNode topo n) {f : String} (hf : f = "csr" ∨ f = "csr-scipy" ∨ f = "scipy-csr") (counts : Bool) :
    ∃ E N m, cellsAtNodesCall (some f) assume counts none t = .ok (.csr (f != "csr") (askedCounts counts E) m) ∧ NodeRows topo mx E N ∧
      IsCsr E ⟨m.indices, m.indptr⟩ ∧ IsCsr N ⟨m.data, m.indptr⟩ ∧ m.shape.1 = mx + 1 ∧
      ∀ (c : Nat) (row : List Nat), topo[c]? = some row → row ≠ [] → (∀ (c' : Nat) (row' : List Nat), c < c' → topo[c']? = some row' → row' = []) → m.shape.2 = c + 1 := by
  obtain ⟨w, -, -, -, h4⟩ := call_plain ht hm ha (frmt := some f) counts (cellIDs := none) (Or.inl rfl)
  obtain ⟨l1, l2⟩ := slotsOf_lengths topo mx w
  obtain ⟨c, row, hr, hne, hl⟩ := exists_last hm.used
  have hmax := max_ereg (w := w) hm hr hne hl
  set s := slotsOf topo mx w with hs
  refine ⟨trimRows s.count s.ereg, trimRows s.count s.nreg, ⟨spdata s.count s.nreg, spdata s.count s.ereg, indptrOf s.count, (s.count.length, c + 1)⟩,
    ?_, nodeRows_trim topo mx w, ?_, ?_, by simp [hs, slotsOf], ?_⟩
  · rw [h4]
    have hc : askedCounts counts (trimRows s.count s.ereg) = if counts then some s.count else none := by rw [askedCounts, l1]
    rw [hc]
    rcases hf with rfl | rfl | rfl <;> simp [canFormat, spdataOf, hmax]
  · show IsCsr _ ⟨spdata s.count s.ereg, indptrOf s.count⟩
    rw [spdata_eq l1]
    conv => arg 2; rw [← l1]
    simpa [l1] using isCsr_flatten (trimRows s.count s.ereg)
  · show IsCsr _ ⟨spdata s.count s.nreg, indptrOf s.count⟩
    rw [spdata_eq l2]
    simpa [l2] using isCsr_flatten (trimRows s.count s.nreg)
  · intro c' row' h1 h2 h3
    have := max_ereg (w := w) hm h1 h2 h3
    rw [← hs, hmax] at this
    rw [Option.some.inj this]

/-- **C130** as rows of different lengths. -/
theorem C130_jagged {topo : Topo} {t : TopoStore} {mx : Nat} (ht : Holds topo t) (hm : Largest topo mx) {assume : Bool}
    (ha : assume = true ∨ ∀ n, n ≤ mx → UsesNode topo n) (counts : Bool) :
    ∃ E N, cellsAtNodesCall (some "jagged") assume counts none t = .ok (.jagged (askedCounts counts E) E N) ∧ NodeRows topo mx E N := by
  obtain ⟨w, -, -, -, h4⟩ := call_plain ht hm ha (frmt := some "jagged") counts (cellIDs := none) (Or.inl rfl)
  obtain ⟨l1, l2⟩ := slotsOf_lengths topo mx w
  obtain ⟨c, row, hr, hne, hl⟩ := exists_last hm.used
  have hmax := max_ereg (w := w) hm hr hne hl
  set s := slotsOf topo mx w with hs
  refine ⟨trimRows s.count s.ereg, trimRows s.count s.nreg, ?_, nodeRows_trim topo mx w⟩
  rw [h4, askedCounts, l1]
  simp [canFormat, spdataOf, hmax, splitCuts_spdata l1, splitCuts_spdata l2]

/-! ## dictionaries -/

theorem slotInv_slotsOf {topo : Topo} {mx w : Nat} (hm : Largest topo mx) (hw : cellsAtNodesReg topo = some (slotsOf topo mx w)) :
    ∃ cmax, SlotInv (mx + 1) cmax (entriesOf topo) (slotsOf topo mx w) := by
  obtain ⟨s, cmax, h1, h2⟩ := cellsAtNodesReg_spec hm.maxNode
  rw [hw] at h1
  obtain rfl := Option.some.inj h1
  exact ⟨cmax, h2⟩

/-- The ids given to the cells: those of the caller, otherwise the numbers of the rows. -/
def cellIdOf (topo : Topo) (cellIDs : Option (List Nat)) (c : Nat) : Nat := (cellIDs.getD (List.range topo.length)).getD c 0

/-- **C130** dictionaries, if the numbers are assumed to be without gaps: every number up to the largest is a key, in ascending order, also
numbers that no cell has (their entries are empty). -/
theorem C130_dicts_assumed {topo : Topo} {t : TopoStore} {mx : Nat} (ht : Holds topo t) (hm : Largest topo mx) (counts : Bool)
    (cellIDs : Option (List Nat)) (hc : ∀ l, cellIDs = some l → topo.length ≤ l.length) :
    ∃ E N C, cellsAtNodesCall (some "dicts") true counts cellIDs t = .ok (.dicts (if counts then some C else none) E N) ∧
      E.map Prod.fst = List.range (mx + 1) ∧ N.map Prod.fst = List.range (mx + 1) ∧ C.length = mx + 1 ∧
      ∀ n, n ≤ mx → ∃ ps, IncidenceList topo n ps ∧ C[n]? = some ps.length ∧
        E.get? n = some (ps.map fun q => cellIdOf topo cellIDs q.1) ∧ N.get? n = some (ps.map Prod.snd) := by
  obtain ⟨w, h1, -, -, h4⟩ := call_plain ht hm (assume := true) (Or.inl rfl) (frmt := some "dicts") counts (cellIDs := cellIDs) (Or.inr rfl)
  obtain ⟨cmax, hi⟩ := slotInv_slotsOf hm h1
  have hcl : topo.length ≤ (cellIDs.getD (List.range topo.length)).length := by
    cases cellIDs with
    | none => simp
    | some l => simpa using hc l rfl
  have hd := nodalCellDataToDicts_spec hi (cellIDs := cellIDs.getD (List.range topo.length)) (nodeIDs := List.range (mx + 1)) (by simp)
    List.nodup_range (fun e he => lt_of_lt_of_le (cell_lt_of_mem_entriesOf he) hcl)
  have hcall := h4
  simp only [canFormat, Option.getD_some, Option.getD_none] at hcall
  rw [show (slotsOf topo mx w).count.length = mx + 1 by simp [slotsOf], hd] at hcall
  simp only [Option.map_some] at hcall
  refine ⟨_, _, _, hcall, ?_, ?_, by simp [slotsOf], ?_⟩
  · rw [List.map_map]
    apply List.ext_getElem?
    intro n
    by_cases hn : n < mx + 1
    · simp [hn]
    · rw [List.getElem?_eq_none (by simp; omega), List.getElem?_eq_none (by simp; omega)]
  · rw [List.map_map]
    apply List.ext_getElem?
    intro n
    by_cases hn : n < mx + 1
    · simp [hn]
    · rw [List.getElem?_eq_none (by simp; omega), List.getElem?_eq_none (by simp; omega)]
  · intro n hn
    have hn' : n < mx + 1 := by omega
    have nd : ∀ {β : Type} (g : Nat → β), (((List.range (mx + 1)).map fun i => ((List.range (mx + 1)).getD i 0, g i)).map Prod.fst).Nodup := by
      intro β g
      rw [List.map_map]
      have : ((List.range (mx + 1)).map (Prod.fst ∘ fun i => ((List.range (mx + 1)).getD i 0, g i))) = List.range (mx + 1) := by
        apply List.ext_getElem?
        intro n
        by_cases hn : n < mx + 1
        · simp [hn]
        · rw [List.getElem?_eq_none (by simp; omega), List.getElem?_eq_none (by simp; omega)]
      rw [this]
      exact List.nodup_range
    refine ⟨_, incidence_atNode topo n, by simp [slotsOf, hn'], ?_, ?_⟩
    · refine PyDict.get?_of_mem (nd _) (List.mem_map.2 ⟨n, List.mem_range.2 hn', ?_⟩)
      simp [hn', cellIdOf]
    · refine PyDict.get?_of_mem (nd _) (List.mem_map.2 ⟨n, List.mem_range.2 hn', ?_⟩)
      simp [hn']

theorem count_regularized {l u : List Nat} (hl : ∀ x ∈ l, x ∈ u) {i : Nat} (hi : i < u.length) (hu : u.Nodup) :
    (l.map u.idxOf).count i = l.count u[i] := by
  induction l with
  | nil => rfl
  | cons a l ih =>
    rw [List.map_cons, List.count_cons, List.count_cons, ih fun x hx => hl x (List.mem_cons_of_mem _ hx)]
    have ha := hl a List.mem_cons_self
    have e : (u.idxOf a == i) = (a == u[i]) := by
      rw [Bool.eq_iff_iff, beq_iff_eq, beq_iff_eq]
      constructor
      · rintro rfl; exact (List.getElem_idxOf (List.idxOf_lt_length_of_mem ha)).symm
      · rintro rfl; exact hu.idxOf_getElem i hi
    rw [e]

theorem largest_regularized {topo : Topo} {mx : Nat} (hm : Largest topo mx) :
    Largest (regularize topo).1 ((npUnique topo.flatten).length - 1) := by
  obtain ⟨-, h2, h3, -, -⟩ := C01_regularize topo
  have hpos : 0 < (npUnique topo.flatten).length := List.length_pos_of_mem ((h2 mx).2 hm.used)
  have e : (regularize topo).2.length = (npUnique topo.flatten).length := rfl
  exact ⟨(h3 _).2 (by omega), fun n hn => by have := (h3 n).1 hn; omega⟩

/-- The call for dictionaries without the assumption. -/
theorem call_dicts {topo : Topo} {t : TopoStore} {mx : Nat} (ht : Holds topo t) (hm : Largest topo mx) (counts : Bool)
    (cellIDs : Option (List Nat)) (hc : ∀ l, cellIDs = some l → l.length = topo.length) :
    cellsAtNodesCall (some "dicts") false counts cellIDs t =
      .ok (.dicts (if counts then some ((npUnique topo.flatten).map fun n => (atNode (entriesOf topo) n).length) else none)
        ((npUnique topo.flatten).map fun n => (n, (atNode (entriesOf topo) n).map fun e => cellIdOf topo cellIDs e.cell))
        ((npUnique topo.flatten).map fun n => (n, (atNode (entriesOf topo) n).map Entry.pos))) := by
  have huse : ∀ n, UsesNode topo n ↔ n ∈ topo.flatten := by
    intro n; simp [UsesNode, List.mem_flatten]
  have hne : topo.flatten ≠ [] := List.ne_nil_of_mem ((huse _).1 hm.used)
  have hd := cellsAtNodesDicts_eq hne cellIDs hc
  cases hreg : isRegular topo with
  | none => exact absurd hm.used (((C02_isRegular topo).1).1 hreg mx)
  | some b =>
    obtain ⟨mx', hmx', hb⟩ := isRegular_spec hreg
    rw [hm.maxNode] at hmx'
    obtain rfl := Option.some.inj hmx'
    cases b with
    | true =>
      obtain ⟨m, hg⟩ := ((C02_isRegular topo).2).1 hreg
      have hmm : m = mx := le_antisymm (hm.max m ((hg m).2 le_rfl)) ((hg mx).1 hm.used)
      subst hmm
      obtain ⟨w, h1, -, -, h4⟩ := call_plain ht hm (assume := false) (Or.inr fun n hn => (hg n).2 hn) (frmt := some "dicts") counts
        (cellIDs := cellIDs) (Or.inr rfl)
      rw [h4]
      have hu : npUnique topo.flatten = List.range (m + 1) := hb.1 rfl
      simp only [cellsAtNodesDicts, hreg, h1, Option.bind_eq_bind, Option.bind_some, if_true] at hd
      simp only [canFormat, Option.getD_some, Option.getD_none, hd, Option.map_some]
      rw [hu]
      rfl
    | false =>
      obtain ⟨g1, g2⟩ := ht.regularized
      have hm2 := largest_regularized hm
      obtain ⟨w, h1, -, -⟩ := cellsAtNodesReg_closed hm2.maxNode
      simp only [cellsAtNodesDicts, hreg, h1, Option.bind_eq_bind, Option.bind_some, Bool.false_eq_true, if_false] at hd
      have hp : canPrepare (some "dicts" == some "dicts") false t = .ok (t.regularized.1, some t.regularized.2) := by
        simp [canPrepare, ht.regular, hreg]
      unfold cellsAtNodesCall
      rw [if_neg (by simp), hp]
      show (match (t.regularized.1).slots.bind (canFormat (some "dicts") counts cellIDs t.regularized.1.cells (some t.regularized.2)) with
        | some a => Except.ok a
        | none => Except.error TopoErr.value) = _
      have hlen : (regularize topo).1.length = topo.length := by rw [regularize_fst, List.length_map]
      rw [g1.slots, h1, g1.cells, hlen, g2]
      have e2 : (regularize topo).2 = npUnique topo.flatten := rfl
      rw [e2] at hd
      simp only [Option.bind_some, canFormat, Option.getD_some, hd, Option.map_some]
      congr 2
      have hcount : (slotsOf (regularize topo).1 ((npUnique topo.flatten).length - 1) w).count =
          (npUnique topo.flatten).map fun n => (atNode (entriesOf topo) n).length := by
        have hpos : 0 < (npUnique topo.flatten).length := List.length_pos_of_mem (mem_npUnique.2 ((huse _).1 hm.used))
        apply List.ext_getElem?
        intro i
        by_cases hi : i < (npUnique topo.flatten).length
        · have hi' : i < (npUnique topo.flatten).length - 1 + 1 := by omega
          have : (regularize topo).1.flatten = topo.flatten.map (npUnique topo.flatten).idxOf := by
            rw [regularize_fst, List.map_flatten]
          simp only [slotsOf, List.getElem?_map, List.getElem?_range hi', List.getElem?_eq_getElem hi, Option.map_some, length_atNode,
            entriesOf_map_node, this]
          rw [count_regularized (fun x hx => mem_npUnique.2 hx) hi (nodup_npUnique _)]
        · rw [List.getElem?_eq_none (by simp [slotsOf]; omega), List.getElem?_eq_none (by simp; omega)]
      rw [hcount]

/-- **C130** dictionaries in general: the keys are the numbers of the nodes in ascending order. The counts are an array whose entries
follow the keys, not the numbers. -/
theorem C130_dicts {topo : Topo} {t : TopoStore} {mx : Nat} (ht : Holds topo t) (hm : Largest topo mx) (counts : Bool)
    (cellIDs : Option (List Nat)) (hc : ∀ l, cellIDs = some l → l.length = topo.length) :
    ∃ ids E N C, cellsAtNodesCall (some "dicts") false counts cellIDs t = .ok (.dicts (if counts then some C else none) E N) ∧
      ids.Pairwise (· < ·) ∧ (∀ n, n ∈ ids ↔ UsesNode topo n) ∧ E.map Prod.fst = ids ∧ N.map Prod.fst = ids ∧ C.length = ids.length ∧
      ∀ k n : Nat, ids[k]? = some n → ∃ ps, IncidenceList topo n ps ∧ C[k]? = some ps.length ∧
        E.get? n = some (ps.map fun q => cellIdOf topo cellIDs q.1) ∧ N.get? n = some (ps.map Prod.snd) := by
  have huse : ∀ n, UsesNode topo n ↔ n ∈ topo.flatten := by
    intro n; simp [UsesNode, List.mem_flatten]
  refine ⟨npUnique topo.flatten, _, _, _, call_dicts ht hm counts cellIDs hc, sorted_npUnique _, fun n => by rw [mem_npUnique, huse], ?_, ?_,
    by simp, ?_⟩
  · simp [Function.comp_def]
  · simp [Function.comp_def]
  · intro k n hk
    have hmem : n ∈ npUnique topo.flatten := List.mem_of_getElem? hk
    have nd : ∀ {β : Type} (g : Nat → β), (((npUnique topo.flatten).map fun i => (i, g i)).map Prod.fst).Nodup := by
      intro β g
      simpa [Function.comp_def] using nodup_npUnique topo.flatten
    refine ⟨_, incidence_atNode topo n, by simp [hk], ?_, ?_⟩
    · rw [List.map_map]
      exact PyDict.get?_of_mem (nd _) (List.mem_map.2 ⟨n, hmem, rfl⟩)
    · rw [List.map_map]
      exact PyDict.get?_of_mem (nd _) (List.mem_map.2 ⟨n, hmem, rfl⟩)

/-! ## calls that fail -/

/-- **C130** `cellIDs` needs the format "dicts". -/
theorem C130_cellids (frmt : Option String) (hf : frmt ≠ some "dicts") (assume counts : Bool) (l : List Nat) (t : TopoStore) :
    cellsAtNodesCall frmt assume counts (some l) t = .error .cellIdsFormat := by
  simp [cellsAtNodesCall, hf]

/-- **C130** numbers with gaps need the format "dicts", unless it is assumed that there are none. -/
theorem C130_gaps {topo : Topo} {t : TopoStore} {mx n : Nat} (ht : Holds topo t) (hm : Largest topo mx) (hn : n < mx)
    (hg : ¬ UsesNode topo n) {frmt : Option String} (hf : frmt ≠ some "dicts") (counts : Bool) :
    cellsAtNodesCall frmt false counts none t = .error .irregularFormat := by
  have hreg : isRegular topo = some false := by
    cases h : isRegular topo with
    | none => exact absurd hm.used (((C02_isRegular topo).1).1 h mx)
    | some b =>
      cases b with
      | false => rfl
      | true =>
        obtain ⟨m, hr⟩ := ((C02_isRegular topo).2).1 h
        exact absurd ((hr n).2 (by have := (hr mx).1 hm.used; omega)) hg
  have hb : (frmt == some "dicts") = false := by simpa using hf
  simp [cellsAtNodesCall, canPrepare, ht.regular, hreg, hb, Except.bind]

/-- **C130** a topology without nodes is refused in every format. -/
theorem C130_empty {topo : Topo} {t : TopoStore} (ht : Holds topo t) (h : ∀ n, ¬ UsesNode topo n) (frmt : Option String)
    (assume counts : Bool) : cellsAtNodesCall frmt assume counts none t = .error .value := by
  have hreg : isRegular topo = none := ((C02_isRegular topo).1).2 h
  have hflat : topo.flatten = [] := List.eq_nil_iff_forall_not_mem.2 fun x hx => by
    obtain ⟨r, hr, hx⟩ := List.mem_flatten.1 hx; exact h x ⟨r, hr, hx⟩
  have hs : cellsAtNodesReg topo = none := by
    simp [cellsAtNodesReg, hflat, maxNode?]
  cases assume with
  | true => simp [cellsAtNodesCall, canPrepare, Except.bind, ht.slots, hs]
  | false => simp [cellsAtNodesCall, canPrepare, Except.bind, ht.regular, hreg]

/-- **C130** is false for the counts: they are said to be "a dictionary (if `cellIDs` is not `None`)" and to have an entry "for each node".
With gaps in the numbers the entry of node 7 is not in place 7. -/
theorem C130_counts_false : ∃ (topo : Topo) (E N : PyDict Nat (List Nat)) (C : List Nat),
    cellsAtNodesCall (some "dicts") false true (some [10, 20]) (.dense topo) = .ok (.dicts (some C) E N) ∧ E.get? 7 = some [10, 20] ∧
      C[7]? = none :=
  ⟨[[5, 7], [7, 9]], [(5, [10]), (7, [10, 20]), (9, [20])], [(5, [0]), (7, [1, 0]), (9, [1])], [1, 2, 1], by
    rw [call_dicts (topo := [[5, 7], [7, 9]]) (t := .dense [[5, 7], [7, 9]]) (mx := 9) rfl ⟨⟨[7, 9], by simp, by simp⟩, by
      rintro n ⟨r, hr, hn⟩
      simp only [List.mem_cons, List.not_mem_nil, or_false] at hr
      rcases hr with rfl | rfl <;> simp at hn <;> omega⟩ _ _ (by simp)]
    rfl, by decide, by decide⟩

/-! ## adjacency -/

/-- The neighbours of a node: the nodes of its cells. -/
def neighboursOf (topo : Topo) (n : Nat) : List Nat := npUnique ((atNode (entriesOf topo) n).map fun e => topo.getD e.cell []).flatten

theorem mem_neighboursOf (topo : Topo) (n k : Nat) : k ∈ neighboursOf topo n ↔ ∃ row ∈ topo, n ∈ row ∧ k ∈ row := by
  rw [neighboursOf, mem_npUnique, List.mem_flatten]
  constructor
  · rintro ⟨row, hrow, hk⟩
    obtain ⟨e, he, rfl⟩ := List.mem_map.1 hrow
    simp only [atNode, List.mem_filter, beq_iff_eq] at he
    obtain ⟨he, hen⟩ := he
    have hlt := cell_lt_of_mem_entriesOf he
    have hat := mem_entriesOf.1 he
    simp only [List.getD_eq_getElem?_getD, List.getElem?_eq_getElem hlt, Option.getD_some] at hk
    refine ⟨topo[e.cell], List.getElem_mem hlt, ?_, hk⟩
    simp only [nodeAt, List.getElem?_eq_getElem hlt, Option.bind_eq_bind, Option.bind_some] at hat
    rw [hen] at hat
    exact List.mem_of_getElem? hat
  · rintro ⟨row, hrow, hn, hk⟩
    obtain ⟨c, hc⟩ := List.getElem?_of_mem hrow
    obtain ⟨j, hj⟩ := List.getElem?_of_mem hn
    refine ⟨row, List.mem_map.2 ⟨⟨c, j, n⟩, ?_, by simp [hc]⟩, hk⟩
    simp only [atNode, List.mem_filter, beq_iff_eq, and_true]
    exact mem_entriesOf.2 (by simp [nodeAt, hc, hj])

theorem adjacency_steps (topo : Topo) (ids : List Nat) :
    (ids.map fun n => (n, (atNode (entriesOf topo) n).map Entry.cell)).mapM (adjacencyStep topo) = some (ids.map fun n => (n, neighboursOf topo n)) := by
  rw [mapM_some (g := fun x : Nat × List Nat => (x.1, npUnique (x.2.map fun c => topo.getD c []).flatten))]
  · rw [List.map_map]
    congr 1
    apply List.map_congr_left
    intro n _
    simp only [Function.comp, neighboursOf, List.map_map]
    rfl
  · intro x hx
    obtain ⟨n, hn, rfl⟩ := List.mem_map.1 hx
    have : gather? topo ((atNode (entriesOf topo) n).map Entry.cell) =
        some (((atNode (entriesOf topo) n).map Entry.cell).map fun c => topo.getD c []) := by
      unfold gather?
      apply mapM_some
      intro c hc
      obtain ⟨e, he, rfl⟩ := List.mem_map.1 hc
      have := cell_lt_of_mem_entriesOf (List.mem_of_mem_filter he)
      simp [List.getElem?_eq_getElem this]
    simp [adjacencyStep, this]

theorem cellIdOf_none {topo : Topo} (n : Nat) :
    (atNode (entriesOf topo) n).map (fun e => cellIdOf topo none e.cell) = (atNode (entriesOf topo) n).map Entry.cell := by
  apply List.map_congr_left
  intro e he
  have := cell_lt_of_mem_entriesOf (List.mem_of_mem_filter he)
  simp [cellIdOf, this]

/-- The keys of the dictionary. -/
def adjKeys (topo : Topo) (mx : Nat) (assume : Bool) : List Nat := if assume then List.range (mx + 1) else npUnique topo.flatten

theorem call_ereg {topo : Topo} {t : TopoStore} {mx : Nat} (ht : Holds topo t) (hm : Largest topo mx) (assume : Bool) :
    ∃ N, cellsAtNodesCall (some "dicts") assume false none t =
      .ok (.dicts none ((adjKeys topo mx assume).map fun n => (n, (atNode (entriesOf topo) n).map Entry.cell)) N) := by
  cases assume with
  | false =>
    have h := call_dicts ht hm false none (by simp)
    simp only [cellIdOf_none] at h
    exact ⟨_, h⟩
  | true =>
    obtain ⟨w, h1, -, -, h4⟩ := call_plain ht hm (assume := true) (Or.inl rfl) (frmt := some "dicts") false (cellIDs := none) (Or.inr rfl)
    obtain ⟨cmax, hi⟩ := slotInv_slotsOf hm h1
    have hd := nodalCellDataToDicts_spec hi (cellIDs := List.range topo.length) (nodeIDs := List.range (mx + 1)) (by simp)
      List.nodup_range (fun e he => by simpa using cell_lt_of_mem_entriesOf he)
    have hcall := h4
    simp only [canFormat, Option.getD_some, Option.getD_none] at hcall
    rw [show (slotsOf topo mx w).count.length = mx + 1 by simp [slotsOf], hd] at hcall
    simp only [Option.map_some] at hcall
    have e : ((List.range (mx + 1)).map fun i => ((List.range (mx + 1)).getD i 0,
        (atNode (entriesOf topo) i).map fun e => (List.range topo.length).getD e.cell 0)) =
        (List.range (mx + 1)).map fun n => (n, (atNode (entriesOf topo) n).map Entry.cell) := by
      apply List.map_congr_left
      intro n hn
      have hn := List.mem_range.1 hn
      have := cellIdOf_none (topo := topo) n
      simp only [cellIdOf, Option.getD_none] at this
      rw [this]
      simp [hn]
    rw [e] at hcall
    exact ⟨_, hcall⟩

/-- Containers other than csr matrices. -/
def TopoStore.NotCsr : TopoStore → Prop
  | .csr _ => False
  | _ => True

theorem dol_eq {sched : List (Nat × Nat) → List (Nat × Nat)} (hs : ∀ w, (sched w).Perm w) {topo : Topo} {t : TopoStore} (ht : Holds topo t)
    (hn : t.NotCsr) (ids : List Nat) : adjacencyDol sched t (ids.map fun n => (n, (atNode (entriesOf topo) n).map Entry.cell)) =
      .ok (ids.map fun n => (n, neighboursOf topo n)) := by
  cases t with
  | dense t =>
    cases ht
    simp only [adjacencyDol, adjacency_steps]
  | jagged t =>
    cases ht
    have hstep : ∀ E, adjacencyAk sched topo.flatten (topo.map List.length) E = E.mapM (adjacencyStep topo) := by
      intro E
      unfold adjacencyAk
      congr 1
      funext x
      rw [subtopo_eq hs, adjacencyStep]
      cases gather? topo x.2 <;> rfl
    simp only [adjacencyDol, hstep, adjacency_steps]
  | csr c => exact hn.elim

/-- **C130** adjacency: one dictionary for all formats. Its keys ascend: they are the nodes of the cells, or all numbers up to the largest if
they are assumed to be without gaps. The list of `n` has the nodes that share a cell with `n`, in ascending order. "nx", "scipy-csr" and "csr"
are what networkx makes of the dictionary, "jagged" are its lists in the order of the keys, everything else is the dictionary. -/
theorem C130_adjacency {sched : List (Nat × Nat) → List (Nat × Nat)} (hs : ∀ w, (sched w).Perm w) {topo : Topo} {t : TopoStore} {mx : Nat}
    (ht : Holds topo t) (hn : t.NotCsr) (hm : Largest topo mx) (assume : Bool) :
    ∃ d : PyDict Nat (List Nat), (d.map Prod.fst).Pairwise (· < ·) ∧
      (∀ n, n ∈ d.map Prod.fst ↔ if assume then n ≤ mx else UsesNode topo n) ∧
      (∀ n l, d.get? n = some l → l.Pairwise (· < ·) ∧ ∀ k, k ∈ l ↔ ∃ row ∈ topo, n ∈ row ∧ k ∈ row) ∧
      nodalAdjacencyCall sched true (some "nx") assume t = .ok (.graph d) ∧
      nodalAdjacencyCall sched true (some "scipy-csr") assume t = .ok (.scipy d) ∧
      nodalAdjacencyCall sched true (some "csr") assume t = .ok (.csr d) ∧
      (∀ hasNx, nodalAdjacencyCall sched hasNx (some "jagged") assume t = .ok (.jagged (d.map Prod.snd))) ∧
      ∀ frmt, frmt ≠ some "nx" → frmt ≠ some "scipy-csr" → frmt ≠ some "csr" → frmt ≠ some "jagged" →
        nodalAdjacencyCall sched true frmt assume t = .ok (.dol d) := by
  have huse : ∀ n, UsesNode topo n ↔ n ∈ topo.flatten := by
    intro n; simp [UsesNode, List.mem_flatten]
  obtain ⟨N, hE⟩ := call_ereg ht hm assume
  have hcall : ∀ hasNx frmt, nodalAdjacencyCall sched hasNx frmt assume t =
      adjFormat hasNx frmt ((adjKeys topo mx assume).map fun n => (n, neighboursOf topo n)) := by
    intro hasNx frmt
    unfold nodalAdjacencyCall
    rw [hE]
    simp only [Except.bind, dol_eq hs ht hn]
  have hkeys : (((adjKeys topo mx assume).map fun n => (n, neighboursOf topo n)).map Prod.fst) = adjKeys topo mx assume := by
    simp [Function.comp_def]
  refine ⟨(adjKeys topo mx assume).map fun n => (n, neighboursOf topo n), ?_, ?_, ?_, ?_, ?_, ?_, ?_, ?_⟩
  · rw [hkeys]
    cases assume with
    | false => exact sorted_npUnique _
    | true => exact List.pairwise_lt_range
  · intro n
    rw [hkeys]
    cases assume with
    | false => simp only [adjKeys, Bool.false_eq_true, if_false, mem_npUnique, huse]
    | true => simp only [adjKeys, if_true, List.mem_range]; omega
  · intro n l hl
    obtain ⟨m, hm, he⟩ := List.mem_map.1 (PyDict.mem_of_get? hl)
    obtain ⟨rfl, rfl⟩ := Prod.mk.inj he
    exact ⟨sorted_npUnique _, mem_neighboursOf topo m⟩
  · rw [hcall]; rfl
  · rw [hcall]; rfl
  · rw [hcall]; rfl
  · intro hasNx
    rw [hcall, ← C07_adjacency_jagged]
    simp [adjFormat]
  · intro frmt h1 h2 h3 h4
    rw [hcall]
    cases frmt with
    | none => rfl
    | some f =>
      simp only [ne_eq, Option.some.injEq] at h1 h2 h3 h4
      simp only [adjFormat, Bool.not_true, Bool.false_and, Bool.false_eq_true, if_false, Option.getD_some]

/-- **C130** is false without networkx: only "jagged" works then, also the plain dictionary, which needs nothing of it, is refused. -/
theorem C130_networkx_false {sched : List (Nat × Nat) → List (Nat × Nat)} (hs : ∀ w, (sched w).Perm w) {topo : Topo} {t : TopoStore} {mx : Nat}
    (ht : Holds topo t) (hm : Largest topo mx) (assume : Bool) {frmt : Option String} (hf : frmt ≠ some "jagged") :
    nodalAdjacencyCall sched false frmt assume t = .error .networkx := by
  obtain ⟨N, hE⟩ := call_ereg ht hm assume
  have hfmt : ∀ d, adjFormat false frmt d = .error .networkx := by
    intro d
    simp [adjFormat, hf]
  unfold nodalAdjacencyCall
  rw [hE]
  simp only [Except.bind]
  cases t with
  | dense t => rw [dol_eq hs ht trivial]; exact hfmt _
  | jagged t => rw [dol_eq hs ht trivial]; exact hfmt _
  | csr c => simp only [adjacencyDol, hfmt]

/-- **C130** is false for csr matrices: in no format is there an answer. -/
theorem C130_csr_false (sched : List (Nat × Nat) → List (Nat × Nat)) {topo : Topo} {c : Csr} {mx : Nat} (ht : IsCsr topo c)
    (hm : Largest topo mx) (hasNx assume : Bool) (frmt : Option String) : ∀ a, nodalAdjacencyCall sched hasNx frmt assume (.csr c) ≠ .ok a := by
  intro a
  obtain ⟨N, hE⟩ := call_ereg (t := .csr c) ht hm assume
  unfold nodalAdjacencyCall
  rw [hE]
  simp only [Except.bind, adjacencyDol]
  cases adjFormat hasNx frmt [] <;> simp

/-- **C130** is false for numbers with gaps that are assumed to have none: "A node is adjacent to itself", but those that no cell has are there
and have no neighbours. -/
theorem C130_self_false {sched : List (Nat × Nat) → List (Nat × Nat)} (hs : ∀ w, (sched w).Perm w) {topo : Topo} {t : TopoStore} {mx n : Nat}
    (ht : Holds topo t) (hn : t.NotCsr) (hm : Largest topo mx) (hlt : n < mx) (hg : ¬ UsesNode topo n) :
    ∃ d, nodalAdjacencyCall sched true none true t = .ok (.dol d) ∧ d.get? n = some [] := by
  obtain ⟨d, h1, h2, h3, -, -, -, -, h4⟩ := C130_adjacency hs ht hn hm true
  refine ⟨d, h4 none (by simp) (by simp) (by simp) (by simp), ?_⟩
  have hmem := (h2 n).2 (by simpa using hlt.le)
  obtain ⟨⟨k, l⟩, hk, rfl⟩ := List.mem_map.1 hmem
  have hget := PyDict.get?_of_mem (h1.imp fun h => Nat.ne_of_lt h) hk
  rw [hget]
  congr 1
  refine List.eq_nil_iff_forall_not_mem.2 fun x hx => ?_
  obtain ⟨row, hr, hn, -⟩ := ((h3 k l hget).2 x).1 hx
  exact hg ⟨row, hr, hn⟩

/-- A jagged topology with a gap, in three containers. -/
example : Holds [[0, 1], [1, 4, 2]] (.jagged [[0, 1], [1, 4, 2]]) ∧ Holds [[0, 1], [1, 4, 2]] (.csr ⟨[0, 1, 1, 4, 2], [0, 2, 5]⟩) ∧
    Largest [[0, 1], [1, 4, 2]] 4 ∧ ¬ UsesNode [[0, 1], [1, 4, 2]] 3 := by
  refine ⟨rfl, ⟨rfl, rfl, by decide⟩, ⟨⟨[1, 4, 2], by simp, by simp⟩, ?_⟩, ?_⟩
  · rintro n ⟨r, hr, hn⟩
    simp only [List.mem_cons, List.not_mem_nil, or_false] at hr
    rcases hr with rfl | rfl <;> simp at hn <;> omega
  · rintro ⟨r, hr, hn⟩
    simp only [List.mem_cons, List.not_mem_nil, or_false] at hr
    rcases hr with rfl | rfl <;> simp at hn

end PM
