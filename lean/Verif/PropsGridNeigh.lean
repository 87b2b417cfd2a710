import Verif.PropsGridVolumes
import Verif.PropsTopo
import Verif.PropsFactors

/-!
# C106: cells at the nodes of grids

The cells at the nodes of `gridH8` and `gridQ4` (`count_cells_at_nodes`, `cells_at_nodes`), the neighbours of the nodes
(`nodal_adjacency`) and the nodal distribution factors of equal cells.
-/

namespace PM

/-! ## factors of equal weights -/

/-- The cells with a node, as a list of numbers, has as many entries as there are cells with the node. -/
theorem incidence_length {topo : Topo} (hnd : ∀ row ∈ topo, row.Nodup) {n : Nat} {ps : List (Nat × Nat)} (h : IncidenceList topo n ps) :
    ps.length = (topo.filter fun row => n ∈ row).length := by
  obtain ⟨h1, h2⟩ := C06_incidence_cells topo hnd n ps h
  have e : ps.map Prod.fst = (List.range topo.length).filter fun c => n ∈ topo.getD c [] := by
    apply eq_of_sorted_of_mem h1 (List.pairwise_lt_range.filter _)
    intro c
    rw [h2 c, List.mem_filter, List.mem_range]
    constructor
    · rintro ⟨row, h3, h4⟩
      obtain ⟨hc, rfl⟩ := List.getElem?_eq_some_iff.1 h3
      exact ⟨hc, by simpa [List.getD_eq_getElem?_getD, h3] using h4⟩
    · rintro ⟨hc, h4⟩
      exact ⟨topo[c], List.getElem?_eq_getElem hc, by simpa [List.getD_eq_getElem?_getD, List.getElem?_eq_getElem hc] using h4⟩
  have e2 : topo = (List.range topo.length).map fun c => topo.getD c [] := by
    apply List.ext_getElem (by simp)
    intro i h3 h4
    simp [List.getD_eq_getElem?_getD, List.getElem?_eq_getElem h3]
  rw [← List.length_map (f := Prod.fst), e]
  conv_rhs => rw [e2]
  rw [List.filter_map, List.length_map]
  rfl

/-- With equal weights the factors of a node are one over the number of its cells. -/
theorem factor_of_equal {K : Type} [Field K] [LinearOrder K] [IsStrictOrderedRing K] {topo : Topo} (hnd : ∀ row ∈ topo, row.Nodup)
    {v : K} (hv : 0 < v) {F : List (List K)} (hF : IsPartition topo (List.replicate topo.length v) F) {c j n : Nat}
    (hn : nodeAt topo c j = some n) : nodeAt F c j = some (1 / (((topo.filter fun row => n ∈ row).length : Nat) : K)) := by
  have hps := incidence_atNode topo n
  set ps := (atNode (entriesOf topo) n).map fun e => (e.cell, e.pos) with hdef
  have hex : ∀ c j, nodeAt topo c j = some n → ∃ f, nodeAt F c j = some f := by
    intro c j h
    unfold nodeAt at h ⊢
    simp only [Option.bind_eq_bind, Option.bind_eq_some_iff] at h
    obtain ⟨row, h1, h2⟩ := h
    have hsh := congrArg (fun l => l[c]?) hF.shape
    simp only [List.getElem?_map, h1, Option.map_some] at hsh
    cases h3 : F[c]? with
    | none => simp [h3] at hsh
    | some r =>
      simp only [h3, Option.map_some, Option.some.injEq] at hsh
      obtain ⟨hj, _⟩ := List.getElem?_eq_some_iff.1 h2
      exact ⟨r[j], by simp [hsh, hj]⟩
  obtain ⟨f, hf⟩ := hex c j hn
  have hw : ∀ c j, nodeAt topo c j = some n → (List.replicate topo.length v)[c]? = some v := by
    intro c j h
    unfold nodeAt at h
    simp only [Option.bind_eq_bind, Option.bind_eq_some_iff] at h
    obtain ⟨row, h1, _⟩ := h
    obtain ⟨hc, _⟩ := List.getElem?_eq_some_iff.1 h1
    simp [hc]
  have hall : ∀ p ∈ ps, (nodeAt F p.1 p.2).getD 0 = f := by
    intro p hp
    have h1 := (hps.exact p.1 p.2).1 hp
    obtain ⟨g, hg⟩ := hex _ _ h1
    have := hF.proportional n p.1 p.2 c j g f v v h1 hn hg hf (hw _ _ h1) (hw _ _ hn)
    rw [hg, Option.getD_some]
    exact mul_right_cancel₀ hv.ne' this
  have hne : ps ≠ [] := List.ne_nil_of_mem ((hps.exact c j).2 hn)
  have hs := hF.sum_one n ps hps hne
  rw [List.map_congr_left hall, List.map_const', List.sum_replicate, nsmul_eq_mul, incidence_length hnd hps] at hs
  rw [hf, eq_one_div_of_mul_eq_one_right hs]

/-! ## nodes and cells with indices -/

section
variable {J I : Type} {pts : J → Prop} {no : J → Nat} {N : Nat} {cells : List I} {node : I → List J} {near : J → I → Prop}

/-- A topology whose nodes and cells have indices. -/
structure Indexed (pts : J → Prop) (no : J → Nat) (N : Nat) (cells : List I) (node : I → List J) (near : J → I → Prop) : Prop where
  inj : ∀ p q, pts p → pts q → no p = no q → p = q
  lt : ∀ p, pts p → no p < N
  surj : ∀ n, n < N → ∃ p, pts p ∧ no p = n
  inside : ∀ i ∈ cells, ∀ q ∈ node i, pts q
  nodup : ∀ i ∈ cells, (node i).Nodup
  mem : ∀ i ∈ cells, ∀ q, pts q → (q ∈ node i ↔ near q i)
  used : ∀ q, pts q → ∃ i ∈ cells, near q i

/-- The rows of the topology. -/
def idxTopo (no : J → Nat) (cells : List I) (node : I → List J) : Topo := cells.map fun i => (node i).map no

theorem Indexed.row (h : Indexed pts no N cells node near) {i : I} (hi : i ∈ cells) {q : J} (hq : pts q) :
    no q ∈ (node i).map no ↔ near q i := by
  rw [← h.mem i hi q hq]
  constructor
  · intro hm
    obtain ⟨p, hp, e⟩ := List.mem_map.1 hm
    rwa [← h.inj p q (h.inside i hi p hp) hq e]
  · exact fun hm => List.mem_map_of_mem hm

theorem Indexed.rows_nodup (h : Indexed pts no N cells node near) : ∀ row ∈ idxTopo no cells node, row.Nodup := by
  intro row hr
  obtain ⟨i, hi, rfl⟩ := List.mem_map.1 hr
  refine (h.nodup i hi).map_on ?_
  exact fun p hp q hq e => h.inj p q (h.inside i hi p hp) (h.inside i hi q hq) e

theorem Indexed.uses (h : Indexed pts no N cells node near) (n : Nat) : UsesNode (idxTopo no cells node) n ↔ n < N := by
  constructor
  · rintro ⟨row, hr, hn⟩
    obtain ⟨i, hi, rfl⟩ := List.mem_map.1 hr
    obtain ⟨p, hp, rfl⟩ := List.mem_map.1 hn
    exact h.lt p (h.inside i hi p hp)
  · intro hn
    obtain ⟨p, hp, rfl⟩ := h.surj n hn
    obtain ⟨i, hi, hpi⟩ := h.used p hp
    exact ⟨_, List.mem_map_of_mem hi, (h.row hi hp).2 hpi⟩

theorem Indexed.filter (h : Indexed pts no N cells node near) [DecidableRel near] {q : J} (hq : pts q) :
    ((idxTopo no cells node).filter fun row => no q ∈ row).length = cells.countP fun i => near q i := by
  rw [idxTopo, List.filter_map, List.length_map, ← List.countP_eq_length_filter]
  apply List.countP_congr
  intro i hi
  simp only [Function.comp, decide_eq_true_eq]
  exact h.row hi hq

theorem Indexed.count (h : Indexed pts no N cells node near) (hN : 1 ≤ N) [DecidableRel near] :
    ∃ r, countCellsAtNodesReg (idxTopo no cells node) = some r ∧ r.length = N ∧
      ∀ q, pts q → r[no q]? = some (cells.countP fun i => near q i) := by
  obtain ⟨r, h1, h2, h3, -⟩ := C05_count (idxTopo no cells node) (N - 1) ((h.uses _).2 (by omega))
    fun n hn => by have := (h.uses n).1 hn; omega
  refine ⟨r, h1, by omega, ?_⟩
  intro q hq
  have := h.lt q hq
  rw [h3 _ (by omega), C05_count_cells _ h.rows_nodup, h.filter hq]

theorem Indexed.cells_at (h : Indexed pts no N cells node near) (hN : 1 ≤ N) :
    ∃ E P, cellsAtNodesJagged (idxTopo no cells node) = some (E, P) ∧ E.length = N ∧
      ∀ q, pts q → ∃ row, E[no q]? = some row ∧ row.Pairwise (· < ·) ∧ ∀ m, m ∈ row ↔ ∃ i, cells[m]? = some i ∧ near q i := by
  obtain ⟨E, P, h1, h2, -, h3⟩ := C06_cells_at_nodes_jagged (idxTopo no cells node) (N - 1) ((h.uses _).2 (by omega))
    fun n hn => by have := (h.uses n).1 hn; omega
  refine ⟨E, P, h1, by omega, ?_⟩
  intro q hq
  have := h.lt q hq
  obtain ⟨ps, hps, h4, -⟩ := h3 (no q) (by omega)
  obtain ⟨h5, h6⟩ := C06_incidence_cells _ h.rows_nodup _ ps hps
  refine ⟨_, h4, h5, fun m => ?_⟩
  rw [h6 m]
  simp only [idxTopo, List.getElem?_map, Option.map_eq_some_iff]
  constructor
  · rintro ⟨row, ⟨i, hi, rfl⟩, hm⟩
    exact ⟨i, hi, (h.row (List.mem_of_getElem? hi) hq).1 hm⟩
  · rintro ⟨i, hi, hm⟩
    exact ⟨_, ⟨i, hi, rfl⟩, (h.row (List.mem_of_getElem? hi) hq).2 hm⟩

theorem Indexed.adjacent (h : Indexed pts no N cells node near) (hN : 1 ≤ N) :
    ∃ d, nodalAdjacency (idxTopo no cells node) = some d ∧
      ∀ q, pts q → ∃ l, d.get? (no q) = some l ∧ l.Pairwise (· < ·) ∧
        ∀ q', pts q' → (no q' ∈ l ↔ ∃ i ∈ cells, near q i ∧ near q' i) := by
  obtain ⟨d, h1, h2, h3⟩ := C07_nodal_adjacency (idxTopo no cells node) 0 ((h.uses _).2 (by omega))
  refine ⟨d, h1, ?_⟩
  intro q hq
  obtain ⟨l, hl⟩ := (h2 (no q)).1 ((h.uses _).2 (h.lt q hq))
  obtain ⟨h4, h5⟩ := h3 _ l hl
  refine ⟨l, hl, h4, fun q' hq' => ?_⟩
  rw [h5 (no q')]
  constructor
  · rintro ⟨row, hr, ha, hb⟩
    obtain ⟨i, hi, rfl⟩ := List.mem_map.1 hr
    exact ⟨i, hi, (h.row hi hq).1 ha, (h.row hi hq').1 hb⟩
  · rintro ⟨i, hi, ha, hb⟩
    exact ⟨_, List.mem_map_of_mem hi, (h.row hi hq).2 ha, (h.row hi hq').2 hb⟩

theorem Indexed.bound (h : Indexed pts no N cells node near) {d : PyDict Nat (List Nat)}
    (hd : nodalAdjacency (idxTopo no cells node) = some d) (hN : 1 ≤ N) {q : J} {l : List Nat}
    (hl : d.get? (no q) = some l) : ∀ m ∈ l, m < N := by
  obtain ⟨d', h1, h2, h3⟩ := C07_nodal_adjacency (idxTopo no cells node) 0 ((h.uses _).2 (by omega))
  rw [hd] at h1
  cases h1
  intro m hm
  obtain ⟨row, hr, -, hb⟩ := ((h3 _ l hl).2 m).1 hm
  exact (h.uses m).1 ⟨row, hr, hb⟩

theorem Indexed.factors (h : Indexed pts no N cells node near) (hN : 1 ≤ N) [DecidableRel near]
    {K : Type} [Field K] [LinearOrder K] [IsStrictOrderedRing K] {v : K} (hv : 0 < v) :
    ∃ F, ndf (idxTopo no cells node) (List.replicate cells.length v) = some F ∧
      ∀ q, pts q → ∀ c j, nodeAt (idxTopo no cells node) c j = some (no q) →
        nodeAt F c j = some (1 / ((cells.countP fun i => near q i : Nat) : K)) := by
  have hlen : (idxTopo no cells node).length = cells.length := by simp [idxTopo]
  obtain ⟨F, h1, h2⟩ := C24_partition (topo := idxTopo no cells node) (w := List.replicate cells.length v) (by simp [hlen]) (by
      obtain ⟨row, hr, hn⟩ := (h.uses 0).2 (by omega)
      exact List.ne_nil_of_mem (List.mem_flatten.2 ⟨row, hr, hn⟩)) h.rows_nodup (by
      intro x hx
      rw [(List.mem_replicate.1 hx).2]
      exact hv)
  refine ⟨F, h1, fun q hq c j hn => ?_⟩
  rw [← hlen] at h2
  rw [factor_of_equal h.rows_nodup hv h2 hn, h.filter hq]

end

/-! ## the lattice -/

/-- Specification: the number of intervals `0..a` that end at the point `x`: two inside, one at the ends. -/
def sidesAt (a x : Nat) : Nat := if x = 0 ∨ x = a then 1 else 2

theorem countP_near (a x : Nat) : (List.range a).countP (fun i => decide (x = i ∨ x = i + 1)) =
    (if x < a then 1 else 0) + (if 0 < x ∧ x ≤ a then 1 else 0) := by
  induction a with
  | zero => simp; omega
  | succ a ih =>
    rw [List.range_succ, List.countP_append, ih]
    simp only [List.countP_cons, List.countP_nil, decide_eq_true_eq]
    split <;> split <;> split <;> split <;> split <;> omega

theorem countP_near' {a x : Nat} (ha : 1 ≤ a) (hx : x ≤ a) :
    (List.range a).countP (fun i => decide (x = i ∨ x = i + 1)) = sidesAt a x := by
  rw [countP_near, sidesAt]
  split <;> split <;> split <;> omega

theorem sum_map_ite {α : Type} (l : List α) (A : α → Bool) (k : Nat) : (l.map fun i => if A i then k else 0).sum = l.countP A * k := by
  induction l with
  | nil => simp
  | cons x l ih =>
    rw [List.map_cons, List.sum_cons, ih, List.countP_cons]
    split <;> ring

theorem countP_latCells2 (a b : Nat) (A B : Nat → Bool) :
    (latCells2 a b).countP (fun p => A p.1 && B p.2) = (List.range a).countP A * (List.range b).countP B := by
  rw [latCells2, List.countP_flatMap, ← sum_map_ite]
  congr 1
  apply List.map_congr_left
  intro i _
  simp only [Function.comp, List.countP_map]
  cases hA : A i <;> simp [Function.comp_def, hA]

theorem countP_latCells (a b c : Nat) (A B C : Nat → Bool) :
    (latCells a b c).countP (fun p => A p.1 && (B p.2.1 && C p.2.2)) =
      (List.range a).countP A * ((List.range b).countP B * (List.range c).countP C) := by
  rw [show latCells a b c = (List.range a).flatMap fun i => (latCells2 b c).map fun q => (i, q.1, q.2) by
    simp [latCells, latCells2, List.map_flatMap, Function.comp_def], List.countP_flatMap, ← sum_map_ite]
  congr 1
  apply List.map_congr_left
  intro i _
  simp only [Function.comp, List.countP_map, ← countP_latCells2]
  cases hA : A i <;> simp [Function.comp_def, hA]

/-- Specification: the point `q` of the lattice is a corner of the cell `p`. -/
def CornerOf (q p : Nat × Nat × Nat) : Prop :=
  (q.1 = p.1 ∨ q.1 = p.1 + 1) ∧ (q.2.1 = p.2.1 ∨ q.2.1 = p.2.1 + 1) ∧ (q.2.2 = p.2.2 ∨ q.2.2 = p.2.2 + 1)

instance : DecidableRel CornerOf := fun q p => by unfold CornerOf; infer_instance

/-- Specification: the points differ by at most one in each direction. -/
def Adjacent (q r : Nat × Nat × Nat) : Prop :=
  (q.1 ≤ r.1 + 1 ∧ r.1 ≤ q.1 + 1) ∧ (q.2.1 ≤ r.2.1 + 1 ∧ r.2.1 ≤ q.2.1 + 1) ∧ (q.2.2 ≤ r.2.2 + 1 ∧ r.2.2 ≤ q.2.2 + 1)

theorem latNo_lt {a b c : Nat} {p : Nat × Nat × Nat} (h : InLat a b c p) : latNo b c p < (a + 1) * (b + 1) * (c + 1) := by
  obtain ⟨x, y, z⟩ := p
  obtain ⟨h1, h2, h3⟩ := h
  simp only [latNo] at *
  have e1 : x * (b + 1) + y + 1 ≤ (a + 1) * (b + 1) := by
    calc x * (b + 1) + y + 1 ≤ a * (b + 1) + b + 1 := by have := Nat.mul_le_mul_right (b + 1) h1; omega
      _ = (a + 1) * (b + 1) := by ring
  calc (x * (b + 1) + y) * (c + 1) + z < (x * (b + 1) + y) * (c + 1) + (c + 1) := by omega
    _ = (x * (b + 1) + y + 1) * (c + 1) := by ring
    _ ≤ _ := Nat.mul_le_mul_right _ e1

theorem latNo_surj {a b c n : Nat} (h : n < (a + 1) * (b + 1) * (c + 1)) : ∃ p, InLat a b c p ∧ latNo b c p = n := by
  refine ⟨(n / (c + 1) / (b + 1), n / (c + 1) % (b + 1), n % (c + 1)), ⟨?_, ?_, ?_⟩, ?_⟩
  · simp only
    have h1 : n / (c + 1) < (a + 1) * (b + 1) := Nat.div_lt_of_lt_mul (by rwa [Nat.mul_comm])
    have h2 : n / (c + 1) / (b + 1) < a + 1 := Nat.div_lt_of_lt_mul (by rwa [Nat.mul_comm])
    omega
  · simp only
    have := Nat.mod_lt (n / (c + 1)) (by omega : 0 < b + 1)
    omega
  · simp only
    have := Nat.mod_lt n (by omega : 0 < c + 1)
    omega
  · simp only [latNo]
    rw [Nat.div_add_mod', Nat.div_add_mod']

theorem lattice_indexed {a b c : Nat} (h : 1 ≤ a ∧ 1 ≤ b ∧ 1 ≤ c) :
    Indexed (InLat a b c) (latNo b c) ((a + 1) * (b + 1) * (c + 1)) (latCells a b c) (fun p => latCell p.1 p.2.1 p.2.2) CornerOf := by
  refine ⟨fun p q hp hq e => latNo_inj hp hq e, fun p hp => latNo_lt hp, fun n hn => latNo_surj hn, ?_, ?_, ?_, ?_⟩
  · rintro ⟨i, j, k⟩ hi q hq
    rw [mem_latCells] at hi
    simp only [latCell, List.mem_cons, List.not_mem_nil, or_false] at hq hi
    rcases hq with rfl | rfl | rfl | rfl | rfl | rfl | rfl | rfl <;> simp only [InLat] <;> omega
  · rintro ⟨i, j, k⟩ _
    simp [latCell]
  · rintro ⟨i, j, k⟩ _ ⟨x, y, z⟩ _
    simp only [latCell, List.mem_cons, List.not_mem_nil, or_false, Prod.mk.injEq, CornerOf]
    omega
  · rintro ⟨x, y, z⟩ ⟨h1, h2, h3⟩
    simp only at h1 h2 h3
    refine ⟨(if x < a then x else x - 1, if y < b then y else y - 1, if z < c then z else z - 1), mem_latCells.2 ⟨?_, ?_, ?_⟩, ?_, ?_, ?_⟩ <;>
      simp only <;> split <;> omega

theorem lattice_count {a b c : Nat} (h : 1 ≤ a ∧ 1 ≤ b ∧ 1 ≤ c) {q : Nat × Nat × Nat} (hq : InLat a b c q) :
    (latCells a b c).countP (fun p => CornerOf q p) = sidesAt a q.1 * (sidesAt b q.2.1 * sidesAt c q.2.2) := by
  rw [← countP_near' h.1 hq.1, ← countP_near' h.2.1 hq.2.1, ← countP_near' h.2.2 hq.2.2, ← countP_latCells]
  apply List.countP_congr
  intro p _
  simp only [Bool.and_eq_true, decide_eq_true_eq]
  rfl

theorem lattice_adjacent {a b c : Nat} {q r : Nat × Nat × Nat} (h : 1 ≤ a ∧ 1 ≤ b ∧ 1 ≤ c) (hq : InLat a b c q) (hr : InLat a b c r) :
    (∃ p ∈ latCells a b c, CornerOf q p ∧ CornerOf r p) ↔ Adjacent q r := by
  obtain ⟨x, y, z⟩ := q
  obtain ⟨x', y', z'⟩ := r
  obtain ⟨h1, h2, h3⟩ := hq
  obtain ⟨h4, h5, h6⟩ := hr
  simp only [CornerOf, Adjacent] at *
  constructor
  · rintro ⟨⟨i, j, k⟩, _, hp⟩
    simp only at hp
    omega
  · intro hA
    have key : ∀ (n u v : Nat), 1 ≤ n → u ≤ n → v ≤ n → u ≤ v + 1 → v ≤ u + 1 → ∃ i, i < n ∧ (u = i ∨ u = i + 1) ∧ (v = i ∨ v = i + 1) := by
      intro n u v hn hu hv h1 h2
      by_cases hm : min u v < n
      · exact ⟨min u v, hm, by omega, by omega⟩
      · exact ⟨n - 1, by omega, by omega, by omega⟩
    obtain ⟨i, hi, i1, i2⟩ := key a x x' h.1 h1 h4 hA.1.1 hA.1.2
    obtain ⟨j, hj, j1, j2⟩ := key b y y' h.2.1 h2 h5 hA.2.1.1 hA.2.1.2
    obtain ⟨k, hk, k1, k2⟩ := key c z z' h.2.2 h3 h6 hA.2.2.1 hA.2.2.2
    exact ⟨(i, j, k), mem_latCells.2 ⟨hi, hj, hk⟩, ⟨i1, j1, k1⟩, i2, j2, k2⟩

theorem latCells_lookup {a b c m : Nat} {p : Nat × Nat × Nat} :
    (latCells a b c)[m]? = some p ↔ (p.1 < a ∧ p.2.1 < b ∧ p.2.2 < c) ∧ m = (p.1 * b + p.2.1) * c + p.2.2 := by
  constructor
  · intro h
    have hp := mem_latCells.1 (List.mem_of_getElem? h)
    refine ⟨hp, ?_⟩
    have := latCells_get (fun q => q) hp.1 hp.2.1 hp.2.2
    rw [List.map_id'] at this
    obtain ⟨h1, e1⟩ := List.getElem?_eq_some_iff.1 h
    obtain ⟨h2, e2⟩ := List.getElem?_eq_some_iff.1 this
    exact (List.Nodup.getElem_inj_iff (latCells_nodup a b c)).1 (e1.trans e2.symm)
  · rintro ⟨h, rfl⟩
    have := latCells_get (fun q => q) h.1 h.2.1 h.2.2
    rwa [List.map_id'] at this

/-- Specification: the cells at the nodes of a mesh of a box. The points are those of a lattice, `a`, `b` and `c` are the numbers of
cells in the three directions. -/
structure BoxNodes {K : Type} [Field K] [LinearOrder K] (C : List (List K)) (X Y Z : Nat → K) (a b c : Nat) (T : Topo) : Prop where
  /-- the points -/
  total : C.length = (a + 1) * (b + 1) * (c + 1)
  points : ∀ x y z : Nat, x ≤ a → y ≤ b → z ≤ c → C[(x * (b + 1) + y) * (c + 1) + z]? = some [X x, Y y, Z z]
  /-- eight cells inside, four on the faces, two on the edges and one at the corners -/
  counts : ∃ r, countCellsAtNodesReg T = some r ∧ r.length = C.length ∧ ∀ x y z : Nat, x ≤ a → y ≤ b → z ≤ c →
    r[(x * (b + 1) + y) * (c + 1) + z]? = some (sidesAt a x * (sidesAt b y * sidesAt c z))
  /-- the cells of a node are those it is a corner of, in ascending order -/
  cells : ∃ E P, cellsAtNodesJagged T = some (E, P) ∧ E.length = C.length ∧ ∀ x y z : Nat, x ≤ a → y ≤ b → z ≤ c →
    ∃ row, E[(x * (b + 1) + y) * (c + 1) + z]? = some row ∧ row.Pairwise (· < ·) ∧
      ∀ m, m ∈ row ↔ ∃ i j k, (i < a ∧ j < b ∧ k < c) ∧ m = (i * b + j) * c + k ∧ CornerOf (x, y, z) (i, j, k)
  /-- the neighbours of a node are the at most 27 nodes that differ by at most one in each direction -/
  neighbours : ∃ d, nodalAdjacency T = some d ∧ ∀ x y z : Nat, x ≤ a → y ≤ b → z ≤ c →
    ∃ l, d.get? ((x * (b + 1) + y) * (c + 1) + z) = some l ∧ l.Pairwise (· < ·) ∧
      ∀ m, m ∈ l ↔ ∃ x' y' z', (x' ≤ a ∧ y' ≤ b ∧ z' ≤ c) ∧ m = (x' * (b + 1) + y') * (c + 1) + z' ∧ Adjacent (x, y, z) (x', y', z')
  /-- the distribution factors of equal cells -/
  factors : ∀ v : K, 0 < v → ∃ F, ndf T (List.replicate (a * b * c) v) = some F ∧ ∀ x y z : Nat, x ≤ a → y ≤ b → z ≤ c →
    ∀ e j, nodeAt T e j = some ((x * (b + 1) + y) * (c + 1) + z) →
      nodeAt F e j = some (1 / ((sidesAt a x * (sidesAt b y * sidesAt c z) : Nat) : K))

section
variable {K : Type} [Field K] [LinearOrder K] [IsStrictOrderedRing K]

theorem boxNodes_grid (ax ay az : Axis K) (hx : ax.N = 2) (hy : ay.N = 2) (hz : az.N = 2) (h : 1 ≤ ax.n ∧ 1 ≤ ay.n ∧ 1 ≤ az.n)
    {T : List (List Int)} (hT : transformTopology (addStart 0 (gridTopo [ax, ay, az])) [pathH8] pathH8.length 0 = some T) :
    BoxNodes (gridCoords [ax, ay, az]) ax.b ay.b az.b ax.n ay.n az.n (asTopo T) := by
  have hL := lattice_indexed h
  have eT : asTopo T = idxTopo (latNo ay.n az.n) (latCells ax.n ay.n az.n) (fun p => latCell p.1 p.2.1 p.2.2) := hexTopo ax ay az hx hy hz hT
  have hlen : (gridCoords [ax, ay, az]).length = (ax.n + 1) * (ay.n + 1) * (az.n + 1) := by
    rw [gridCoords, length_gridL]; simp [Axis.pts, hx, hy, hz, Nat.mul_assoc]
  have hN : 1 ≤ (ax.n + 1) * (ay.n + 1) * (az.n + 1) := Nat.succ_le_of_lt (by positivity)
  have hlc : (latCells ax.n ay.n az.n).length = ax.n * ay.n * az.n := by
    have := sum_latCells ax.n ay.n az.n fun _ => 1
    simpa [Nat.mul_assoc] using this
  rw [eT]
  refine ⟨hlen, ?_, ?_, ?_, ?_, ?_⟩
  · intro x y z h1 h2 h3
    exact latCoords ax ay az hx hy hz (p := (x, y, z)) ⟨h1, h2, h3⟩
  · obtain ⟨r, h1, h2, h3⟩ := hL.count hN
    refine ⟨r, h1, by rw [h2, hlen], ?_⟩
    intro x y z i1 i2 i3
    have := h3 (x, y, z) ⟨i1, i2, i3⟩
    rwa [lattice_count h ⟨i1, i2, i3⟩] at this
  · obtain ⟨E, P, h1, h2, h3⟩ := hL.cells_at hN
    refine ⟨E, P, h1, by rw [h2, hlen], ?_⟩
    intro x y z i1 i2 i3
    obtain ⟨row, h4, h5, h6⟩ := h3 (x, y, z) ⟨i1, i2, i3⟩
    refine ⟨row, h4, h5, fun m => ?_⟩
    rw [h6 m]
    constructor
    · rintro ⟨⟨i, j, k⟩, h7, h8⟩
      obtain ⟨h9, h10⟩ := latCells_lookup.1 h7
      exact ⟨i, j, k, h9, h10, h8⟩
    · rintro ⟨i, j, k, h9, h10, h8⟩
      exact ⟨(i, j, k), latCells_lookup.2 ⟨h9, h10⟩, h8⟩
  · obtain ⟨d, h1, h2⟩ := hL.adjacent hN
    refine ⟨d, h1, ?_⟩
    intro x y z i1 i2 i3
    obtain ⟨l, h3, h4, h5⟩ := h2 (x, y, z) ⟨i1, i2, i3⟩
    refine ⟨l, h3, h4, fun m => ?_⟩
    constructor
    · intro hm
      obtain ⟨⟨x', y', z'⟩, hp, rfl⟩ := hL.surj m (hL.bound h1 hN h3 m hm)
      exact ⟨x', y', z', hp, rfl, (lattice_adjacent h ⟨i1, i2, i3⟩ hp).1 ((h5 _ hp).1 hm)⟩
    · rintro ⟨x', y', z', hp, rfl, hA⟩
      exact (h5 (x', y', z') hp).2 ((lattice_adjacent (r := (x', y', z')) h ⟨i1, i2, i3⟩ hp).2 hA)
  · intro v hv
    obtain ⟨F, h1, h2⟩ := hL.factors hN hv
    rw [hlc] at h1
    refine ⟨F, h1, ?_⟩
    intro x y z i1 i2 i3 e j he
    have := h2 (x, y, z) ⟨i1, i2, i3⟩ e j he
    rwa [lattice_count h ⟨i1, i2, i3⟩] at this

/-- **C106** uniform grids of hexahedra. -/
theorem C106_gridH8 (lX lY lZ : K) {nx ny nz : Nat} (s0 s1 s2 : K) (h : 1 ≤ nx ∧ 1 ≤ ny ∧ 1 ≤ nz) :
    ∃ C T, gridH8 (args3 lX lY lZ nx ny nz s0 s1 s2 0) = some (C, T) ∧
      BoxNodes C (fun i => s0 + lX / nx * i) (fun i => s1 + lY / ny * i) (fun i => s2 + lZ / nz * i) nx ny nz (asTopo T) := by
  obtain ⟨T, h1, _⟩ := vtk3_closed 2 le_rfl tabH8 (uniAxis lX nx 2 s0) (uniAxis lY ny 2 s1) (uniAxis lZ nz 2 s2) rfl rfl rfl 0
  refine ⟨gridCoords [uniAxis lX nx 2 s0, uniAxis lY ny 2 s1, uniAxis lZ nz 2 s2], T, ?_, boxNodes_grid _ _ _ rfl rfl rfl h h1⟩
  have e : gridCore (args3 lX lY lZ nx ny nz s0 s1 s2 0) [2, 2, 2] true none = some (rgrid3 lX lY lZ nx ny nz 2 2 2 s0 s1 s2 0) := rfl
  rw [gridH8, gridNamed, e]
  simp only [Option.bind_eq_bind, Option.bind_some]
  rw [rgrid3, rgrid3_closed lX lY lZ s0 s1 s2 0 h ⟨le_rfl, le_rfl, le_rfl⟩ (.refl _) (.refl _), h1]
  rfl

/-- **C106** grids of hexahedra with bins. -/
theorem C106_gridH8_bins {bx bY bz : List K} (s0 s1 s2 : K) (h : 2 ≤ bx.length ∧ 2 ≤ bY.length ∧ 2 ≤ bz.length) :
    ∃ C T, gridH8 (argsB3 bx bY bz s0 s1 s2 0) = some (C, T) ∧
      BoxNodes C (fun i => s0 + bx.getD i 0) (fun i => s1 + bY.getD i 0) (fun i => s2 + bz.getD i 0)
        (bx.length - 1) (bY.length - 1) (bz.length - 1) (asTopo T) := by
  obtain ⟨T, h1, _⟩ := vtk3_closed 2 le_rfl tabH8 (binAxis bx 2 s0) (binAxis bY 2 s1) (binAxis bz 2 s2) rfl rfl rfl 0
  refine ⟨gridCoords [binAxis bx 2 s0, binAxis bY 2 s1, binAxis bz 2 s2], T, ?_,
    boxNodes_grid _ _ _ rfl rfl rfl (by simp [binAxis]; omega) h1⟩
  have e : gridCore (argsB3 bx bY bz s0 s1 s2 0) [2, 2, 2] true none = some (gridBins3 bx bY bz 2 2 2 s0 s1 s2 0) := rfl
  rw [gridH8, gridNamed, e]
  simp only [Option.bind_eq_bind, Option.bind_some]
  rw [gridBins3, bins3_closed s0 s1 s2 0 h ⟨le_rfl, le_rfl, le_rfl⟩ (.refl _) (.refl _), h1]
  rfl

end

/-! ## plane grids -/

/-- Specification: the point `q` of a plane lattice is a corner of the cell `p`. -/
def CornerOf2 (q p : Nat × Nat) : Prop := (q.1 = p.1 ∨ q.1 = p.1 + 1) ∧ (q.2 = p.2 ∨ q.2 = p.2 + 1)

instance : DecidableRel CornerOf2 := fun q p => by unfold CornerOf2; infer_instance

/-- Specification: the points differ by at most one in each direction. -/
def Adjacent2 (q r : Nat × Nat) : Prop := (q.1 ≤ r.1 + 1 ∧ r.1 ≤ q.1 + 1) ∧ (q.2 ≤ r.2 + 1 ∧ r.2 ≤ q.2 + 1)

theorem lattice_indexed2 {a b : Nat} (h : 1 ≤ a ∧ 1 ≤ b) :
    Indexed (InLat2 a b) (latNo2 b) ((a + 1) * (b + 1)) (latCells2 a b) (fun p => latCell2 p.1 p.2) CornerOf2 := by
  refine ⟨fun p q hp hq e => latNo2_inj hp hq e, ?_, ?_, ?_, ?_, ?_, ?_⟩
  · rintro ⟨x, y⟩ hp
    have := latNo_lt (a := a) (b := b) (c := 0) (p := (x, y, 0)) ⟨hp.1, hp.2, le_rfl⟩
    simpa [latNo, latNo2] using this
  · intro n hn
    obtain ⟨⟨x, y, z⟩, h1, h2⟩ := latNo_surj (a := a) (b := b) (c := 0) (n := n) (by simpa using hn)
    obtain ⟨h3, h4, h5⟩ := h1
    simp only [Nat.le_zero] at h5
    subst h5
    exact ⟨(x, y), ⟨h3, h4⟩, by simpa [latNo, latNo2] using h2⟩
  · rintro ⟨i, j⟩ hi q hq
    rw [mem_latCells2] at hi
    simp only [latCell2, List.mem_cons, List.not_mem_nil, or_false] at hq hi
    rcases hq with rfl | rfl | rfl | rfl <;> simp only [InLat2] <;> omega
  · rintro ⟨i, j⟩ _
    simp [latCell2]
  · rintro ⟨i, j⟩ _ ⟨x, y⟩ _
    simp only [latCell2, List.mem_cons, List.not_mem_nil, or_false, Prod.mk.injEq, CornerOf2]
    omega
  · rintro ⟨x, y⟩ ⟨h1, h2⟩
    simp only at h1 h2
    refine ⟨(if x < a then x else x - 1, if y < b then y else y - 1), mem_latCells2.2 ⟨?_, ?_⟩, ?_, ?_⟩ <;> simp only <;> split <;> omega

theorem lattice_count2 {a b : Nat} (h : 1 ≤ a ∧ 1 ≤ b) {q : Nat × Nat} (hq : InLat2 a b q) :
    (latCells2 a b).countP (fun p => CornerOf2 q p) = sidesAt a q.1 * sidesAt b q.2 := by
  rw [← countP_near' h.1 hq.1, ← countP_near' h.2 hq.2, ← countP_latCells2]
  apply List.countP_congr
  intro p _
  simp only [Bool.and_eq_true, decide_eq_true_eq]
  rfl

theorem lattice_adjacent2 {a b : Nat} {q r : Nat × Nat} (h : 1 ≤ a ∧ 1 ≤ b) (hq : InLat2 a b q) (hr : InLat2 a b r) :
    (∃ p ∈ latCells2 a b, CornerOf2 q p ∧ CornerOf2 r p) ↔ Adjacent2 q r := by
  have := lattice_adjacent (a := a) (b := b) (c := 1) (q := (q.1, q.2, 0)) (r := (r.1, r.2, 0)) ⟨h.1, h.2, le_rfl⟩
    ⟨hq.1, hq.2, by simp⟩ ⟨hr.1, hr.2, by simp⟩
  constructor
  · rintro ⟨⟨i, j⟩, hp, h1, h2⟩
    have hp := mem_latCells2.1 hp
    obtain ⟨h3, h4, -⟩ := this.1 ⟨(i, j, 0), mem_latCells.2 ⟨hp.1, hp.2, by simp⟩, ⟨h1.1, h1.2, .inl rfl⟩, h2.1, h2.2, .inl rfl⟩
    exact ⟨h3, h4⟩
  · rintro ⟨h1, h2⟩
    obtain ⟨⟨i, j, k⟩, hp, h3, h4⟩ := this.2 ⟨h1, h2, by simp⟩
    have hp := mem_latCells.1 hp
    exact ⟨(i, j), mem_latCells2.2 ⟨hp.1, hp.2.1⟩, ⟨h3.1, h3.2.1⟩, h4.1, h4.2.1⟩

theorem latCells2_lookup {a b m : Nat} {p : Nat × Nat} :
    (latCells2 a b)[m]? = some p ↔ (p.1 < a ∧ p.2 < b) ∧ m = p.1 * b + p.2 := by
  constructor
  · intro h
    have hp := mem_latCells2.1 (List.mem_of_getElem? h)
    refine ⟨hp, ?_⟩
    have := latCells2_get (fun q => q) hp.1 hp.2
    rw [List.map_id'] at this
    obtain ⟨h1, e1⟩ := List.getElem?_eq_some_iff.1 h
    obtain ⟨h2, e2⟩ := List.getElem?_eq_some_iff.1 this
    exact (List.Nodup.getElem_inj_iff (latCells2_nodup a b)).1 (e1.trans e2.symm)
  · rintro ⟨h, rfl⟩
    have := latCells2_get (fun q => q) h.1 h.2
    rwa [List.map_id'] at this

/-- Specification: the cells at the nodes of a plane mesh of a rectangle, see `BoxNodes`. -/
structure RectNodes {K : Type} [Field K] [LinearOrder K] (C : List (List K)) (X Y : Nat → K) (a b : Nat) (T : Topo) : Prop where
  total : C.length = (a + 1) * (b + 1)
  points : ∀ x y : Nat, x ≤ a → y ≤ b → C[x * (b + 1) + y]? = some [X x, Y y]
  /-- four cells inside, two on the sides and one at the corners -/
  counts : ∃ r, countCellsAtNodesReg T = some r ∧ r.length = C.length ∧ ∀ x y : Nat, x ≤ a → y ≤ b →
    r[x * (b + 1) + y]? = some (sidesAt a x * sidesAt b y)
  cells : ∃ E P, cellsAtNodesJagged T = some (E, P) ∧ E.length = C.length ∧ ∀ x y : Nat, x ≤ a → y ≤ b →
    ∃ row, E[x * (b + 1) + y]? = some row ∧ row.Pairwise (· < ·) ∧
      ∀ m, m ∈ row ↔ ∃ i j, (i < a ∧ j < b) ∧ m = i * b + j ∧ CornerOf2 (x, y) (i, j)
  neighbours : ∃ d, nodalAdjacency T = some d ∧ ∀ x y : Nat, x ≤ a → y ≤ b →
    ∃ l, d.get? (x * (b + 1) + y) = some l ∧ l.Pairwise (· < ·) ∧
      ∀ m, m ∈ l ↔ ∃ x' y', (x' ≤ a ∧ y' ≤ b) ∧ m = x' * (b + 1) + y' ∧ Adjacent2 (x, y) (x', y')
  factors : ∀ v : K, 0 < v → ∃ F, ndf T (List.replicate (a * b) v) = some F ∧ ∀ x y : Nat, x ≤ a → y ≤ b →
    ∀ e j, nodeAt T e j = some (x * (b + 1) + y) → nodeAt F e j = some (1 / ((sidesAt a x * sidesAt b y : Nat) : K))

section
variable {K : Type} [Field K] [LinearOrder K] [IsStrictOrderedRing K]

theorem rectNodes_grid (ax ay : Axis K) (hx : ax.N = 2) (hy : ay.N = 2) (h : 1 ≤ ax.n ∧ 1 ≤ ay.n)
    {T : List (List Int)} (hT : transformTopology (addStart 0 (gridTopo [ax, ay])) [pathQ4] pathQ4.length 0 = some T) :
    RectNodes (gridCoords [ax, ay]) ax.b ay.b ax.n ay.n (asTopo T) := by
  have hL := lattice_indexed2 h
  have eT : asTopo T = idxTopo (latNo2 ay.n) (latCells2 ax.n ay.n) (fun p => latCell2 p.1 p.2) := quadTopo ax ay hx hy hT
  have hlen : (gridCoords [ax, ay]).length = (ax.n + 1) * (ay.n + 1) := by
    rw [gridCoords, length_gridL]; simp [Axis.pts, hx, hy]
  have hN : 1 ≤ (ax.n + 1) * (ay.n + 1) := Nat.succ_le_of_lt (by positivity)
  have hlc : (latCells2 ax.n ay.n).length = ax.n * ay.n := by
    have := sum_latCells2 ax.n ay.n fun _ => 1
    simpa using this
  rw [eT]
  refine ⟨hlen, ?_, ?_, ?_, ?_, ?_⟩
  · intro x y h1 h2
    exact latCoords2 ax ay hx hy (p := (x, y)) ⟨h1, h2⟩
  · obtain ⟨r, h1, h2, h3⟩ := hL.count hN
    refine ⟨r, h1, by rw [h2, hlen], ?_⟩
    intro x y i1 i2
    have := h3 (x, y) ⟨i1, i2⟩
    rwa [lattice_count2 h ⟨i1, i2⟩] at this
  · obtain ⟨E, P, h1, h2, h3⟩ := hL.cells_at hN
    refine ⟨E, P, h1, by rw [h2, hlen], ?_⟩
    intro x y i1 i2
    obtain ⟨row, h4, h5, h6⟩ := h3 (x, y) ⟨i1, i2⟩
    refine ⟨row, h4, h5, fun m => ?_⟩
    rw [h6 m]
    constructor
    · rintro ⟨⟨i, j⟩, h7, h8⟩
      obtain ⟨h9, h10⟩ := latCells2_lookup.1 h7
      exact ⟨i, j, h9, h10, h8⟩
    · rintro ⟨i, j, h9, h10, h8⟩
      exact ⟨(i, j), latCells2_lookup.2 ⟨h9, h10⟩, h8⟩
  · obtain ⟨d, h1, h2⟩ := hL.adjacent hN
    refine ⟨d, h1, ?_⟩
    intro x y i1 i2
    obtain ⟨l, h3, h4, h5⟩ := h2 (x, y) ⟨i1, i2⟩
    refine ⟨l, h3, h4, fun m => ?_⟩
    constructor
    · intro hm
      obtain ⟨⟨x', y'⟩, hp, rfl⟩ := hL.surj m (hL.bound h1 hN h3 m hm)
      exact ⟨x', y', hp, rfl, (lattice_adjacent2 h ⟨i1, i2⟩ hp).1 ((h5 _ hp).1 hm)⟩
    · rintro ⟨x', y', hp, rfl, hA⟩
      exact (h5 (x', y') hp).2 ((lattice_adjacent2 (r := (x', y')) h ⟨i1, i2⟩ hp).2 hA)
  · intro v hv
    obtain ⟨F, h1, h2⟩ := hL.factors hN hv
    rw [hlc] at h1
    refine ⟨F, h1, ?_⟩
    intro x y i1 i2 e j he
    have := h2 (x, y) ⟨i1, i2⟩ e j he
    rwa [lattice_count2 h ⟨i1, i2⟩] at this

/-- **C106** plane uniform grids. -/
theorem C106_gridQ4 (lX lY : K) {nx ny : Nat} (s0 s1 : K) (h : 1 ≤ nx ∧ 1 ≤ ny) :
    ∃ C T, gridQ4 (args2 lX lY nx ny s0 s1 0) = some (C, T) ∧
      RectNodes C (fun i => s0 + lX / nx * i) (fun i => s1 + lY / ny * i) nx ny (asTopo T) := by
  obtain ⟨T, h1, _⟩ := vtk2_closed 2 le_rfl tabQ4 (uniAxis lX nx 2 s0) (uniAxis lY ny 2 s1) rfl rfl 0
  refine ⟨gridCoords [uniAxis lX nx 2 s0, uniAxis lY ny 2 s1], T, ?_, rectNodes_grid _ _ rfl rfl h h1⟩
  have e : gridCore (args2 lX lY nx ny s0 s1 0) [2, 2] true none = some (rgrid2 lX lY nx ny 2 2 s0 s1 0) := rfl
  rw [gridQ4, gridNamed, e]
  simp only [Option.bind_eq_bind, Option.bind_some]
  rw [rgrid2, rgrid2_closed lX lY s0 s1 0 h ⟨le_rfl, le_rfl⟩ (.refl _) (.refl _), h1]
  rfl

/-- **C106** plane grids with bins. -/
theorem C106_gridQ4_bins {bx bY : List K} (s0 s1 : K) (h : 2 ≤ bx.length ∧ 2 ≤ bY.length) :
    ∃ C T, gridQ4 (argsB2 bx bY s0 s1 0) = some (C, T) ∧
      RectNodes C (fun i => s0 + bx.getD i 0) (fun i => s1 + bY.getD i 0) (bx.length - 1) (bY.length - 1) (asTopo T) := by
  obtain ⟨T, h1, _⟩ := vtk2_closed 2 le_rfl tabQ4 (binAxis bx 2 s0) (binAxis bY 2 s1) rfl rfl 0
  refine ⟨gridCoords [binAxis bx 2 s0, binAxis bY 2 s1], T, ?_, rectNodes_grid _ _ rfl rfl (by simp [binAxis]; omega) h1⟩
  have e : gridCore (argsB2 bx bY s0 s1 0) [2, 2] true none = some (gridBins2 bx bY 2 2 s0 s1 0) := rfl
  rw [gridQ4, gridNamed, e]
  simp only [Option.bind_eq_bind, Option.bind_some]
  rw [gridBins2, bins2_closed s0 s1 0 h ⟨le_rfl, le_rfl⟩ (.refl _) (.refl _), h1]
  rfl

end

/-! ## examples -/

/-- Four cells around the middle node of a plane grid, one at the corners. -/
example : (gridQ4 (args2 (2 : ℚ) 2 2 2 0 0 0)).bind (fun r => countCellsAtNodesReg (asTopo r.2)) =
    some [1, 2, 1, 2, 4, 2, 1, 2, 1] := by decide +kernel
example : sidesAt 2 1 * sidesAt 2 1 = 4 ∧ sidesAt 2 0 * sidesAt 2 1 = 2 ∧ sidesAt 1 1 = 1 := by decide
example : ∃ C T, gridH8 (args3 (2 : ℚ) 3 4 2 1 3 0 0 0 0) = some (C, T) ∧
    BoxNodes C (fun i => 0 + 2 / (2 : Nat) * i) (fun i => 0 + 3 / (1 : Nat) * i) (fun i => 0 + 4 / (3 : Nat) * i) 2 1 3 (asTopo T) :=
  C106_gridH8 2 3 4 0 0 0 (by decide)

end PM
