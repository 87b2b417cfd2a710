import Verif.PropsPull
import Verif.PropsTriang

/-!
# C97, C75: exactly when pulled data add up, and what `triangulate` makes of its arguments
-/

namespace PM

section
variable {K : Type} [Field K]

/-- Factors that are read at place `k` of the block: those add up to one at every node. -/
def AddsUpToOne (T : Topo) (G : List (List K)) : Prop :=
  ∀ n ps, UsesNode T n → IncidenceList T n ps → (ps.map fun p => (nodeAt G p.1 p.2).getD 0).sum = 1

theorem adds_iff {T : Topo} {G : List (List K)} {N : Nat} (hN : ∀ n, UsesNode T n → n < N)
    (hG : ∀ c j n, nodeAt T c j = some n → ∃ f, nodeAt G c j = some f) :
    (∀ data : List K, data.length = N → ∃ E, distribute data T G = some E ∧ AddsUpTo T E data) ↔ AddsUpToOne T G := by
  have key : ∀ (data : List K), data.length = N → ∃ E, distribute data T G = some E ∧ E.map List.length = T.map List.length ∧
      ∀ n ps, IncidenceList T n ps → (ps.map fun p => (nodeAt E p.1 p.2).getD 0).sum =
        (ps.map fun p => (nodeAt G p.1 p.2).getD 0).sum * data.getD n 0 := by
    intro data hd
    obtain ⟨E, h1, h2, h3⟩ := distribute_closed (data := data) (by rw [hd]; exact hN) hG
    refine ⟨E, h1, h2, fun n ps hp => ?_⟩
    rw [← List.sum_map_mul_right]
    congr 1
    apply List.map_congr_left
    intro p hpm
    rw [h3 p.1 p.2 n ((hp.exact p.1 p.2).1 hpm)]
    rfl
  constructor
  · intro h n ps hu hp
    obtain ⟨E, h1, h2⟩ := h (List.replicate N 1) (by simp)
    obtain ⟨E', h3, -, h4⟩ := key (List.replicate N 1) (by simp)
    rw [h1] at h3
    cases h3
    have := h2.2 n ps hu hp
    rw [h4 n ps hp] at this
    have hn := hN n hu
    simpa [hn] using this
  · intro h data hd
    obtain ⟨E, h1, h2, h3⟩ := key data hd
    refine ⟨E, h1, h2, fun n ps hu hp => ?_⟩
    have hn := hN n hu
    rw [h3 n ps hp, h n ps hu hp, one_mul]
    simp [hd, hn]

omit [Field K] in
theorem nodeAt_shape {T : Topo} {G : List (List K)} (h : ∀ (k : Nat) (r : List Nat), T[k]? = some r → ∃ g, G[k]? = some g ∧ r.length ≤ g.length) :
    ∀ c j n, nodeAt T c j = some n → ∃ f, nodeAt G c j = some f := by
  intro c j n hn
  obtain ⟨r, hr, hj⟩ := Option.bind_eq_some_iff.1 (show T[c]? >>= (fun r => r[j]?) = some n from hn)
  obtain ⟨g, hg, hl⟩ := h c r hr
  have : j < g.length := (List.getElem?_eq_some_iff.1 hj).1.trans_le hl
  exact ⟨g[j], by simp [nodeAt, hg, this]⟩

/-- **C97** factors in a csr matrix: the pulled data add up to the data of the nodes, whatever these are, if and only if the rows of the matrix that
belong to the ids of the cells add up to one at every node. -/
theorem C97_ids_exact {T : Topo} {ids : List Nat} {F : List (List K)} {N : Nat} (hl : ids.length = T.length) (hi : ∀ i ∈ ids, i < F.length)
    (hs : ∀ (k : Nat) (r : List Nat) (i : Nat), T[k]? = some r → ids[k]? = some i → r.length ≤ (F.getD i []).length)
    (hN : ∀ n, UsesNode T n → n < N) :
    (∀ data : List K, data.length = N → ∃ E, cellPull data T ids (.csr F.flatten (rowPtr F)) = some E ∧ AddsUpTo T E data) ↔
      AddsUpToOne T (ids.map fun i => F.getD i []) := by
  rw [← adds_iff hN]
  · apply forall_congr'
    intro data
    rw [cellPull, distributeSparse_zip data hl hi, ← distribute_zip data (by simpa using hl)]
  · apply nodeAt_shape
    intro k r hr
    have hk : k < ids.length := by rw [hl]; exact (List.getElem?_eq_some_iff.1 hr).1
    refine ⟨F.getD ids[k] [], by simp [hk], hs k r _ hr (List.getElem?_eq_getElem hk)⟩

/-- **C97** factors in an array: the same, of the rows at the places of the cells within the block, whatever the ids are. -/
theorem C97_dense_exact {T : Topo} (ids : List Nat) {F : List (List K)} {N : Nat}
    (hs : ∀ (k : Nat) (r : List Nat), T[k]? = some r → ∃ f, F[k]? = some f ∧ r.length ≤ f.length)
    (hN : ∀ n, UsesNode T n → n < N) :
    (∀ data : List K, data.length = N → ∃ E, cellPull data T ids (.dense F) = some E ∧ AddsUpTo T E data) ↔ AddsUpToOne T F :=
  adds_iff hN (nodeAt_shape hs)

theorem incidence_count {T : Topo} {n : Nat} {ps : List (Nat × Nat)} (h : IncidenceList T n ps) : ps.length = T.flatten.count n := by
  rw [h.unique, List.length_map, length_atNode, entriesOf_map_node]

/-- **C97** without factors the data add up if and only if no node is shared by cells (or repeated in one). -/
theorem C97_missing_exact [CharZero K] {T : Topo} (ids : List Nat) {N : Nat} (hN : ∀ n, UsesNode T n → n < N) :
    (∀ data : List K, data.length = N → ∃ E, cellPull data T ids (.missing : Factors K) = some E ∧ AddsUpTo T E data) ↔ T.flatten.Nodup := by
  have hG : ∀ c j n, nodeAt T c j = some n → nodeAt (T.map (List.map fun _ => (1 : K))) c j = some 1 := by
    intro c j n hn
    obtain ⟨r, hr, hj⟩ := Option.bind_eq_some_iff.1 (show T[c]? >>= (fun r => r[j]?) = some n from hn)
    have : j < r.length := (List.getElem?_eq_some_iff.1 hj).1
    simp [nodeAt, hr, this]
  have e := adds_iff (G := T.map (List.map fun _ => (1 : K))) hN (fun c j n h => ⟨1, hG c j n h⟩)
  refine Iff.trans e ?_
  have hsum : ∀ n ps, IncidenceList T n ps →
      (ps.map fun p => (nodeAt (T.map (List.map fun _ => (1 : K))) p.1 p.2).getD 0).sum = (ps.length : K) := by
    intro n ps hp
    have : (ps.map fun p => (nodeAt (T.map (List.map fun _ => (1 : K))) p.1 p.2).getD 0) = ps.map fun _ => (1 : K) := by
      apply List.map_congr_left
      intro p hpm
      rw [hG p.1 p.2 n ((hp.exact p.1 p.2).1 hpm)]
      rfl
    rw [this]
    simp
  constructor
  · intro h
    rw [List.nodup_iff_count_le_one]
    intro n
    by_cases hu : n ∈ T.flatten
    · have hu' : UsesNode T n := by
        obtain ⟨r, hr, hn⟩ := List.mem_flatten.1 hu
        exact ⟨r, hr, hn⟩
      have hp := incidence_atNode T n
      have h1 := h n _ hu' hp
      rw [hsum n _ hp] at h1
      rw [← incidence_count hp]
      exact le_of_eq (by exact_mod_cast h1)
    · rw [List.count_eq_zero.2 hu]; omega
  · intro hnd n ps hu hp
    rw [hsum n ps hp]
    obtain ⟨r, hr, hn⟩ := hu
    rw [incidence_count hp, List.count_eq_one_of_mem hnd (List.mem_flatten.2 ⟨r, hr, hn⟩)]
    norm_num

end

/-- The hypotheses are met: two triangles with a common side, ids from zero or from one; halves at the common nodes. -/
example : (∀ i ∈ [0, 1], i < ([[1, 1 / 2, 1 / 2], [1 / 2, 1 / 2, 1]] : List (List ℚ)).length) ∧
    ¬ ([[0, 1, 2], [1, 2, 3]] : Topo).flatten.Nodup := by decide

/-! ## C75 -/

section
variable {K : Type} [Field K] [LinearOrder K] [IsStrictOrderedRing K]

omit [LinearOrder K] [IsStrictOrderedRing K] in
theorem triOrigo_iff {origo : Option (List K)} {o : K × K × K} : triOrigo origo = some o ↔ OriginOf origo o := by
  constructor
  · intro h
    obtain ⟨a, b, c⟩ := o
    match origo, h with
    | none, h => simp only [triOrigo, Option.some.injEq, Prod.mk.injEq] at h; obtain ⟨rfl, rfl, rfl⟩ := h; exact ⟨rfl, rfl, rfl⟩
    | some [x, y], h =>
      simp only [triOrigo, Option.some.injEq, Prod.mk.injEq] at h
      obtain ⟨rfl, rfl, rfl⟩ := h
      refine ⟨by simp, by simp, ?_⟩
      intro i hi
      match i, hi with
      | 0, _ => rfl
      | 1, _ => rfl
      | 2, _ => rfl
    | some [x, y, z], h =>
      simp only [triOrigo, Option.some.injEq, Prod.mk.injEq] at h
      obtain ⟨rfl, rfl, rfl⟩ := h
      refine ⟨by simp, by simp, ?_⟩
      intro i hi
      match i, hi with
      | 0, _ => rfl
      | 1, _ => rfl
      | 2, _ => rfl
  · exact triOrigo_of

omit [LinearOrder K] [IsStrictOrderedRing K] in
/-- **C75** points are made if and only if the origin has two or three numbers and either an integer comes with random points or the size is a tuple
and no integer is given. -/
theorem C75_made_exact (size : K × K) (isTuple : Bool) (shape : TriShape) (origo : Option (List K)) (random : Bool) (rx ry : List K) :
    (∃ P, triPoints size isTuple shape origo random rx ry = some P) ↔ (∃ o, OriginOf origo o) ∧
      (((∃ n, shape = .int n) ∧ random = true) ∨ ((¬ ∃ n, shape = .int n) ∧ isTuple = true)) := by
  unfold triPoints
  cases ho : triOrigo origo with
  | none =>
    have : ¬ ∃ o, OriginOf origo o := by
      rintro ⟨o, h⟩
      rw [triOrigo_of h] at ho
      cases ho
    simp [this]
  | some o =>
    have : ∃ o, OriginOf origo o := ⟨o, triOrigo_iff.1 ho⟩
    cases shape <;> cases random <;> cases isTuple <;> simp [this]

omit [LinearOrder K] [IsStrictOrderedRing K] in
theorem mem_triGrid_z {size : K × K} {n m : Nat} {o : K × K × K} {p : V3 K} (h : p ∈ triGridPoints size n m o) : p.z = 0 := by
  unfold triGridPoints at h
  obtain ⟨y, -, hy⟩ := List.mem_flatMap.1 h
  obtain ⟨x, -, rfl⟩ := List.mem_map.1 hy
  rfl

/-- **C75** a pair `(n, m)`: never the points of `n` times `m` subdivisions; at the height of the origin if and only if this is zero (or there are no
points); a triangulation needs three points, so the default never has one. -/
theorem C75_pair_exact (size : K × K) (n m : Nat) {origo : Option (List K)} {o : K × K × K} (ho : OriginOf origo o) (random : Bool) (rx ry : List K) :
    (∃ P, triPoints size true (.pair n m) origo random rx ry = some P ∧ P.length = n * m ∧ P.length ≠ (n + 1) * (m + 1) ∧
      ((∀ p ∈ P, p.z = -o.2.2) ↔ o.2.2 = 0 ∨ n = 0 ∨ m = 0)) ∧
    ∃ P, triPoints size true .default origo random rx ry = some P ∧ P.length = 1 := by
  have hO := triOrigo_of ho
  refine ⟨⟨triGridPoints size n m o, by simp [triPoints, hO], triGrid_length .., ?_, ?_⟩, triGridPoints size 1 1 o, by simp [triPoints, hO],
    triGrid_length ..⟩
  · rw [triGrid_length]
    have : (n + 1) * (m + 1) = n * m + n + m + 1 := by ring
    omega
  · constructor
    · intro h
      by_cases hl : n = 0 ∨ m = 0
      · exact Or.inr hl
      · left
        have hpos : 0 < (triGridPoints size n m o).length := by
          rw [triGrid_length]
          rw [not_or] at hl
          exact Nat.mul_pos (Nat.pos_of_ne_zero hl.1) (Nat.pos_of_ne_zero hl.2)
        have hm := List.getElem_mem hpos
        have := h _ hm
        rw [mem_triGrid_z hm] at this
        linarith
    · rintro (h | h) p hp
      · rw [mem_triGrid_z hp, h, neg_zero]
      · have : (triGridPoints size n m o).length = 0 := by
          rw [triGrid_length]
          rcases h with rfl | rfl <;> simp
        rw [List.length_eq_zero_iff.1 this] at hp
        cases hp

end

example : ∃ o, OriginOf (some [1, 2, (5 : ℚ)]) o := ⟨(1, 2, 5), triOrigo_iff.1 rfl⟩

end PM
