import Verif.CellLines
import Verif.PropsTransform
import Mathlib.Tactic.IntervalCases

/-!
# C78: the lines of triangles, tetrahedra and hexahedra
-/

namespace PM

/-- Specification: `e` joins the nodes of a cell at two positions related by `adj`, in either order. -/
def CellLineOf (adj : Nat → Nat → Prop) (cell e : List Nat) : Prop :=
  ∃ i j a b, adj i j ∧ cell[i]? = some a ∧ cell[j]? = some b ∧ e.Perm [a, b]

/-- Specification: `E` lists every line of every cell exactly once, and nothing else. -/
def ListsLines (adj : Nat → Nat → Prop) (topo E : Topo) : Prop :=
  (∀ (i j : Nat) (a b : List Nat), E[i]? = some a → E[j]? = some b → a.Perm b → i = j) ∧
    ∀ e, (∃ f ∈ E, f.Perm e) ↔ ∃ cell ∈ topo, CellLineOf adj cell e

/-- Specification: the corners of a hexahedron in its node order, as corners of the unit cube. -/
def cubeCorner : List (Fin 2 × Fin 2 × Fin 2) :=
  [(0, 0, 0), (1, 0, 0), (1, 1, 0), (0, 1, 0), (0, 0, 1), (1, 0, 1), (1, 1, 1), (0, 1, 1)]

/-- Specification: two corners of a cube that differ in exactly one direction. -/
def CubeAdj (i j : Nat) : Prop :=
  ∃ p ∈ cubeCorner[i]?, ∃ q ∈ cubeCorner[j]?,
    (if p.1 = q.1 then 0 else 1) + (if p.2.1 = q.2.1 then 0 else 1) + (if p.2.2 = q.2.2 then 0 else 1) = 1

theorem reshape_blocks {α β : Type} (l : List α) (n : Nat) (f : α → List β) (hf : ∀ a ∈ l, (f a).length = n) :
    reshapeRows l.length n (l.flatMap f) = some (l.map f) := by
  unfold reshapeRows
  rw [if_pos (by rw [length_flatMap_block hf]; ring)]
  refine congrArg some ?_
  apply List.ext_getElem?
  intro i
  rw [List.getElem?_map, List.getElem?_map]
  by_cases hi : i < l.length
  · rw [List.getElem?_range hi, List.getElem?_eq_getElem hi]
    simp only [Option.map_some, Option.some.injEq]
    apply List.ext_getElem?
    intro k
    rw [List.getElem?_take]
    by_cases hk : k < n
    · rw [if_pos hk, List.getElem?_drop, getElem?_flatMap_block hf hk, List.getElem?_eq_getElem hi]
      rfl
    · rw [if_neg hk, List.getElem?_eq_none (by rw [hf _ (List.getElem_mem hi)]; omega)]
  · rw [List.getElem?_eq_none (by simpa using hi), List.getElem?_eq_none (by simpa using hi)]
    rfl

/-- The entities of `uniqueTopoData` are those of the cells, up to the order of nodes. -/
theorem unique_mem_iff (t : List (List (List Nat))) (e : List Nat) :
    (∃ f ∈ (uniqueTopoData t).1, f.Perm e) ↔ ∃ c ∈ t, ∃ r ∈ c, r.Perm e := by
  obtain ⟨-, u2, u3, u4, -⟩ := C08_unique_topo_data t
  constructor
  · rintro ⟨f, hf, hfe⟩
    obtain ⟨id, hid, rfl⟩ := List.getElem_of_mem hf
    obtain ⟨c, k, hck⟩ := u4 id hid
    have h1 := congrArg (fun l => l[c]?) u2
    simp only [List.getElem?_map] at h1
    unfold nodeAt at hck
    cases hI : (uniqueTopoData t).2[c]? with
    | none => rw [hI] at hck; cases hck
    | some row =>
      rw [hI] at hck h1
      cases hT : t[c]? with
      | none => rw [hT] at h1; cases h1
      | some blk =>
        rw [hT] at h1
        simp only [Option.map_some, Option.some.injEq] at h1
        have hck' : row[k]? = some id := hck
        have hk : k < blk.length := by
          rw [← h1]; exact (List.getElem?_eq_some_iff.1 hck').1
        have hn : nodeAt t c k = some blk[k] := by
          simp [nodeAt, hT, List.getElem?_eq_getElem hk]
        obtain ⟨id', r, g1, g2, g3, -⟩ := u3 c k _ hn
        have : id' = id := by
          have h2 : nodeAt (uniqueTopoData t).2 c k = some id := by simp [nodeAt, hI, hck']
          rw [g1] at h2; exact Option.some.inj h2
        subst this
        rw [List.getElem?_eq_getElem hid] at g2
        obtain rfl := Option.some.inj g2
        exact ⟨blk, List.mem_of_getElem? hT, _, List.getElem_mem hk, g3.symm.trans hfe⟩
  · rintro ⟨blk, hb, r, hr, hre⟩
    obtain ⟨c, hc, rfl⟩ := List.getElem_of_mem hb
    obtain ⟨k, hk, rfl⟩ := List.getElem_of_mem hr
    obtain ⟨id, q, -, g2, g3, -⟩ := u3 c k (t[c][k]) (by simp [nodeAt, List.getElem?_eq_getElem hc, List.getElem?_eq_getElem hk])
    exact ⟨q, List.mem_of_getElem? g2, g3.trans hre⟩

/-- **C78** lines along any path of pairs of nodes: every pair of every cell is listed exactly once, and nothing else. -/
theorem C78_path {topo : Topo} {path : List (List Nat)} (h : PathOK topo path 2) :
    ∃ E, cellLines topo path 2 = some E ∧ ListsLines (fun i j => [i, j] ∈ path) topo E := by
  have ht : transformTopology topo path 2 0 = some (transformed topo path 0) :=
    transformResult_eq h 0 fun x => mem_transformWrites
  have hr : reshapeRows topo.length path.length (transformed topo path 0) =
      some (topo.map fun cell => path.map fun p => p.map fun q => cell.getD q 0) :=
    reshape_blocks topo path.length _ fun _ _ => by simp
  refine ⟨_, by unfold cellLines; rw [ht, Option.bind_some, hr, Option.map_some], (C08_unique_topo_data _).1, ?_⟩
  intro e
  rw [unique_mem_iff]
  constructor
  · rintro ⟨c, hc, r, hr, hre⟩
    obtain ⟨cell, hcell, rfl⟩ := List.mem_map.1 hc
    obtain ⟨p, hp, rfl⟩ := List.mem_map.1 hr
    match p, h.rect p hp, hp, hre with
    | [i, j], _, hp, hre =>
      have hi := h.inside cell hcell _ hp i (by simp)
      have hj := h.inside cell hcell _ hp j (by simp)
      refine ⟨cell, hcell, i, j, cell[i], cell[j], hp, List.getElem?_eq_getElem hi, List.getElem?_eq_getElem hj, ?_⟩
      simpa [List.getElem?_eq_getElem hi, List.getElem?_eq_getElem hj] using hre.symm
  · rintro ⟨cell, hcell, i, j, a, b, hp, ha, hb, he⟩
    refine ⟨_, List.mem_map.2 ⟨cell, hcell, rfl⟩, _, List.mem_map.2 ⟨[i, j], hp, rfl⟩, ?_⟩
    simpa [ha, hb] using he.symm

/-- Tables that contain every related pair of positions in one order or the other list the lines of `adj`. -/
theorem lists_of_table {topo E : Topo} {path : List (List Nat)} {adj : Nat → Nat → Prop} {n : Nat}
    (hlen : ∀ c ∈ topo, c.length = n) (hE : ListsLines (fun i j => [i, j] ∈ path) topo E)
    (htab : ∀ i < n, ∀ j < n, (([i, j] ∈ path ∨ [j, i] ∈ path) ↔ adj i j)) : ListsLines adj topo E := by
  refine ⟨hE.1, fun e => (hE.2 e).trans ?_⟩
  constructor
  · rintro ⟨cell, hc, i, j, a, b, hp, ha, hb, he⟩
    have hi := (List.getElem?_eq_some_iff.1 ha).1
    have hj := (List.getElem?_eq_some_iff.1 hb).1
    rw [hlen cell hc] at hi hj
    exact ⟨cell, hc, i, j, a, b, (htab i hi j hj).1 (Or.inl hp), ha, hb, he⟩
  · rintro ⟨cell, hc, i, j, a, b, hp, ha, hb, he⟩
    have hi := (List.getElem?_eq_some_iff.1 ha).1
    have hj := (List.getElem?_eq_some_iff.1 hb).1
    rw [hlen cell hc] at hi hj
    rcases (htab i hi j hj).2 hp with h | h
    · exact ⟨cell, hc, i, j, a, b, h, ha, hb, he⟩
    · exact ⟨cell, hc, j, i, b, a, h, hb, ha, he.trans (List.Perm.swap b a [])⟩

/-- **C78** `T3_to_L2`: the lines joining any two corners of a triangle, each of them once. -/
theorem C78_lines_T3 {topo : Topo} (h : ∀ c ∈ topo, c.length = 3) :
    ∃ E, linesT3 .missing false topo = some E ∧ ListsLines (· ≠ ·) topo E := by
  obtain ⟨E, h1, h2⟩ := C78_path (topo := topo) (path := edgeIdsT3)
    ⟨by decide, fun c hc p hp q hq => by rw [h c hc]; revert p q; decide⟩
  exact ⟨E, h1, lists_of_table h h2 (by decide)⟩

/-- **C78** `TET4_to_L2`: the lines joining any two corners of a tetrahedron, each of them once. -/
theorem C78_lines_TET4 {topo : Topo} (h : ∀ c ∈ topo, c.length = 4) :
    ∃ E, linesTET4 .missing false topo = some E ∧ ListsLines (· ≠ ·) topo E := by
  obtain ⟨E, h1, h2⟩ := C78_path (topo := topo) (path := edgeIdsTET4)
    ⟨by decide, fun c hc p hp q hq => by rw [h c hc]; revert p q; decide⟩
  exact ⟨E, h1, lists_of_table h h2 (by decide)⟩

/-- **C78** `H8_to_L2`: the lines joining corners of a hexahedron that are neighbours on the cube, each of them once. -/
theorem C78_lines_H8 {topo : Topo} (h : ∀ c ∈ topo, c.length = 8) :
    ∃ E, linesH8 .missing false topo = some E ∧ ListsLines CubeAdj topo E := by
  obtain ⟨E, h1, h2⟩ := C78_path (topo := topo) (path := edgeIdsH8)
    ⟨by decide, fun c hc p hp q hq => by rw [h c hc]; revert p q; decide⟩
  refine ⟨E, h1, lists_of_table h h2 ?_⟩
  intro i hi j hj
  unfold CubeAdj
  interval_cases i <;> interval_cases j <;> simp [edgeIdsH8, cubeCorner]

/-- **C78** the arguments of the three functions: data is refused; a path has to be an array with 3 (6, 12) rows of two
numbers and is then used instead of the edges. -/
theorem C78_arguments (n : Nat) (default rows : List (List Nat)) (width : Nat) (topo : Topo) (path : PathArg) :
    linesOf n default path true topo = none ∧
      linesOf n default .other false topo = none ∧
      (¬(rows.length = n ∧ width = 2) → linesOf n default (.array rows width) false topo = none) ∧
      (rows.length = n → PathOK topo rows 2 → ∃ E, linesOf n default (.array rows 2) false topo = some E ∧
        ListsLines (fun i j => [i, j] ∈ rows) topo E) := by
  refine ⟨by cases path <;> simp [linesOf], rfl, fun h => by simp only [linesOf]; rw [if_neg]; tauto, fun h1 h2 => ?_⟩
  obtain ⟨E, h3, h4⟩ := C78_path h2
  exact ⟨E, by simp only [linesOf]; rw [if_pos ⟨h1, trivial, trivial⟩]; exact h3, h4⟩

/-- **C78** how many pairs a given path must have: three for triangles, six for tetrahedra, twelve for hexahedra. -/
theorem C78_pairs (rows : List (List Nat)) (width : Nat) (topo : Topo) :
    (¬(rows.length = 3 ∧ width = 2) → linesT3 (.array rows width) false topo = none) ∧
      (¬(rows.length = 6 ∧ width = 2) → linesTET4 (.array rows width) false topo = none) ∧
      (¬(rows.length = 12 ∧ width = 2) → linesH8 (.array rows width) false topo = none) ∧
      (PathOK topo rows 2 →
        (rows.length = 3 → ∃ E, linesT3 (.array rows 2) false topo = some E ∧ ListsLines (fun i j => [i, j] ∈ rows) topo E) ∧
        (rows.length = 6 → ∃ E, linesTET4 (.array rows 2) false topo = some E ∧ ListsLines (fun i j => [i, j] ∈ rows) topo E) ∧
        (rows.length = 12 → ∃ E, linesH8 (.array rows 2) false topo = some E ∧ ListsLines (fun i j => [i, j] ∈ rows) topo E)) :=
  ⟨(C78_arguments 3 edgeIdsT3 rows width topo .missing).2.2.1, (C78_arguments 6 edgeIdsTET4 rows width topo .missing).2.2.1,
    (C78_arguments 12 edgeIdsH8 rows width topo .missing).2.2.1, fun hp =>
      ⟨fun h => (C78_arguments 3 edgeIdsT3 rows 2 topo .missing).2.2.2 h hp, fun h => (C78_arguments 6 edgeIdsTET4 rows 2 topo .missing).2.2.2 h hp,
        fun h => (C78_arguments 12 edgeIdsH8 rows 2 topo .missing).2.2.2 h hp⟩⟩

/-- **C78** the check of the shape does not guarantee that a given path lists the edges: three times the same pair is
accepted. -/
theorem C78_path_false : ∃ rows : List (List Nat), ∃ E : Topo, linesT3 (.array rows 2) false [[0, 1, 2]] = some E ∧
    ¬ ListsLines (· ≠ ·) [[0, 1, 2]] E := by
  have hp : PathOK [[0, 1, 2]] [[0, 1], [0, 1], [0, 1]] 2 := ⟨by decide, by decide⟩
  obtain ⟨E, h1, h2⟩ := C78_path hp
  refine ⟨[[0, 1], [0, 1], [0, 1]], E, h1, ?_⟩
  intro h3
  obtain ⟨f, hf, hfe⟩ := (h3.2 [1, 2]).2 ⟨[0, 1, 2], by simp, 1, 2, 1, 2, by decide, rfl, rfl, List.Perm.refl _⟩
  obtain ⟨cell, hc, i, j, a, b, hij, ha, hb, he⟩ := (h2.2 [1, 2]).1 ⟨f, hf, hfe⟩
  simp only [List.mem_singleton] at hc
  subst hc
  obtain ⟨rfl, rfl⟩ : i = 0 ∧ j = 1 := by simpa using hij
  simp only [List.getElem?_cons_zero, List.getElem?_cons_succ, Option.some.injEq] at ha hb
  subst ha hb
  revert he
  decide

/-- A concrete case: two triangles with a common side have five lines. -/
example : linesT3 .missing false [[0, 1, 2], [2, 1, 3]] = some [[0, 1], [0, 2], [1, 2], [1, 3], [2, 3]] := by decide +kernel

/-- A concrete case: a tetrahedron has six lines, a hexahedron twelve. -/
example : (linesTET4 .missing false [[4, 7, 2, 9]]).map List.length = some 6 ∧
    (linesH8 .missing false [[0, 1, 2, 3, 4, 5, 6, 7]]).map List.length = some 12 := by decide +kernel

end PM
