import Verif.CellData

/-!
# C23: exploding and decomposing meshes; C20 for the same loops
-/

namespace PM

variable {α β : Type}

/-! ## lemmas -/

theorem arrayOf_eq {n : Nat} {zero : α} {w : List (Nat × Option α)} {L : List α} (hl : L.length = n)
    (hw : ∀ x ∈ w, x.2 = L[x.1]?) (hall : ∀ k, k < n → ∃ x ∈ w, x.1 = k) : arrayOf zero n w = some L := by
  have hc : Consistent w := by
    intro x hx y hy hxy
    rw [hw x hx, hw y hy, hxy]
  unfold arrayOf
  apply mapM_id_some
  apply List.ext_getElem?
  intro k
  by_cases hk : k < n
  · obtain ⟨x, hx, rfl⟩ := hall k hk
    rw [toArr_getElem? _ hk, runW_of_mem hc hx, hw x hx, List.getElem?_map]
    rw [List.getElem?_eq_getElem (by omega), Option.map_some]
  · rw [List.getElem?_eq_none (by simp; omega), List.getElem?_eq_none (by simp; omega)]

theorem coordAt_some {coords : List α} {topo : Topo} {nNE : Nat} (hr : ∀ r ∈ topo, r.length = nNE)
    (hin : ∀ r ∈ topo, ∀ n ∈ r, n < coords.length) (zero : α) {i j : Nat} (hi : i < topo.length) (hj : j < nNE) :
    ∃ n, nodeAt topo i j = some n ∧ n < coords.length ∧ coordAt coords topo i j = coords[n]? ∧
      coords[n]? = some (coords.getD n zero) := by
  have hri := hr _ (List.getElem_mem hi)
  have hj' : j < topo[i].length := by omega
  have hn := hin _ (List.getElem_mem hi) _ (List.getElem_mem hj')
  refine ⟨topo[i][j], by simp [nodeAt, List.getElem?_eq_getElem hi, List.getElem?_eq_getElem hj'], hn, ?_, ?_⟩
  · simp [coordAt, nodeAt, List.getElem?_eq_getElem hi, List.getElem?_eq_getElem hj']
  · rw [List.getElem?_eq_getElem hn, List.getD_eq_getElem?_getD, List.getElem?_eq_getElem hn]; rfl

theorem range_blocks (n k : Nat) :
    ((List.range n).flatMap fun i => (List.range k).map fun j => i * k + j) = List.range (n * k) := by
  apply List.ext_getElem?
  intro r
  have hl : ((List.range n).flatMap fun i => (List.range k).map fun j => i * k + j).length = k * n := by
    rw [length_flatMap_block (n := k) fun _ _ => by simp]; simp
  by_cases h : r < k * n
  · obtain ⟨i, j, hi, hj, rfl⟩ := mixed_radix_exists h
    rw [getElem?_flatMap_block (fun _ _ => by simp) hj, List.getElem?_range hi, List.getElem?_range (Nat.mul_comm k n ▸ h)]
    simp [List.getElem?_range hj]
  · rw [List.getElem?_eq_none (by omega), List.getElem?_eq_none (by rw [List.length_range, Nat.mul_comm]; omega)]

/-! ## cells_coords -/

/-- The meaning of `cells_coords`: entry `(i, j)` is the point of node `j` of cell `i`. -/
def IsCellsCoords (coords : List α) (topo : Topo) (E : List (List α)) : Prop :=
  E.length = topo.length ∧ ∀ i : Nat, (E[i]?).map List.length = (topo[i]?).map List.length ∧
    ∀ j n, nodeAt topo i j = some n → nodeAt E i j = coords[n]?

theorem cellsCoords_closed {coords : List α} {topo : Topo} {nNE : Nat} (hr : ∀ r ∈ topo, r.length = nNE)
    (hin : ∀ r ∈ topo, ∀ n ∈ r, n < coords.length) (zero : α) {w : List ((Nat × Nat) × Option α)}
    (hp : (cellsCoordsW coords topo nNE).Perm w) :
    cellsCoordsWith zero topo.length nNE w = some (topo.map (List.map fun n => coords.getD n zero)) := by
  have hm : ∀ x, x ∈ w ↔ ∃ i j, i < topo.length ∧ j < nNE ∧ x = ((i, j), coordAt coords topo i j) := by
    intro x
    rw [← hp.mem_iff]
    simp only [cellsCoordsW, List.mem_flatMap, List.mem_range, List.mem_map]
    constructor
    · rintro ⟨i, hi, j, hj, rfl⟩; exact ⟨i, j, hi, hj, rfl⟩
    · rintro ⟨i, j, hi, hj, rfl⟩; exact ⟨i, hi, j, hj, rfl⟩
  have hc : Consistent w := by
    intro x hx y hy hxy
    obtain ⟨i, j, _, _, rfl⟩ := (hm x).1 hx
    obtain ⟨i', j', _, _, rfl⟩ := (hm y).1 hy
    obtain ⟨rfl, rfl⟩ := Prod.mk.inj hxy
    rfl
  unfold cellsCoordsWith
  apply toRows_eq
  · simp
  · intro x hx
    obtain ⟨r, h, rfl⟩ := List.mem_map.1 hx
    simp [hr r h]
  · intro i j hi hj
    obtain ⟨n, h1, h2, h3, h4⟩ := coordAt_some hr hin zero hi hj
    have := runW_of_mem hc (m := fun _ => some zero) ((hm _).2 ⟨i, j, hi, hj, rfl⟩)
    rw [this, h3, h4]
    have hj' : j < topo[i].length := by rw [hr _ (List.getElem_mem hi)]; exact hj
    rw [nodeAt, List.getElem?_eq_getElem hi] at h1
    simp only [nodeAt, List.getElem?_map, List.getElem?_eq_getElem hi, Option.map_some]
    change (topo[i])[j]? = some n at h1
    change _ = (List.map (fun n => coords.getD n zero) topo[i])[j]?
    rw [List.getElem?_map, h1]; rfl

/-- **C20** the gather of cell coordinates, in any order of the assignments, is the sequential one, and gives the
points of the nodes. -/
theorem C20_cells_coords_schedule {coords : List α} {topo : Topo} {nNE : Nat} (hr : ∀ r ∈ topo, r.length = nNE)
    (hin : ∀ r ∈ topo, ∀ n ∈ r, n < coords.length) (zero : α) {w : List ((Nat × Nat) × Option α)}
    (hp : (cellsCoordsW coords topo nNE).Perm w) :
    cellsCoordsWith zero topo.length nNE w = cellsCoords zero coords topo nNE ∧
      ∃ E, cellsCoords zero coords topo nNE = some E ∧ IsCellsCoords coords topo E := by
  have h1 := cellsCoords_closed hr hin zero hp
  have h2 : cellsCoords zero coords topo nNE = _ := cellsCoords_closed hr hin zero (.refl _)
  refine ⟨h1.trans h2.symm, _, h2, by simp, fun i => ⟨?_, ?_⟩⟩
  · rw [List.getElem?_map]
    cases topo[i]? <;> simp
  · intro j n h
    have hn : n < coords.length := by
      have := mem_flatten_of_nodeAt h
      rw [List.mem_flatten] at this
      obtain ⟨r, h1, h2⟩ := this
      exact hin r h1 n h2
    rw [nodeAt] at h ⊢
    rw [List.getElem?_map]
    cases ht : topo[i]? with
    | none => rw [ht] at h; cases h
    | some r =>
      rw [ht] at h
      change r[j]? = some n at h
      change (r.map _)[j]? = _
      rw [List.getElem?_map, h, Option.map_some, List.getD_eq_getElem?_getD, List.getElem?_eq_getElem hn]
      rfl

example : cellsCoords (0 : Nat) [10, 11, 12] [[0, 1], [2, 1]] 2 = some [[10, 11], [12, 11]] := by decide

/-! ## explode -/

/-- `C`, `T` is the mesh `coords`, `topo` with a set of points of its own for each cell. -/
structure IsExploded (coords : List α) (topo : Topo) (nNE : Nat) (C : List α) (T : Topo) : Prop where
  points : C.length = topo.length * nNE
  cells : T.length = topo.length
  width : ∀ r ∈ T, r.length = nNE
  /-- every point is used exactly once in the whole mesh -/
  once : T.flatten = List.range (topo.length * nNE)
  /-- and lies where the original node lies -/
  place : ∀ i j n, nodeAt topo i j = some n → ∃ m, nodeAt T i j = some m ∧ C[m]? = coords[n]?

theorem explodeTopo_closed {nE nNE : Nat} {wt : List ((Nat × Nat) × Nat)} (hp : (explodeTopoW nE nNE).Perm wt) :
    toRows nE nNE (runW wt fun _ => 0) = (List.range nE).map fun i => (List.range nNE).map fun j => i * nNE + j := by
  apply toRows_runW
  · simp
  · intro x hx
    obtain ⟨i, _, rfl⟩ := List.mem_map.1 hx
    simp
  · intro x hx
    rw [← hp.mem_iff] at hx
    simp only [explodeTopoW, List.mem_flatMap, List.mem_range, List.mem_map] at hx
    obtain ⟨i, hi, j, hj, rfl⟩ := hx
    simp [nodeAt, List.getElem?_range hi, List.getElem?_range hj]
  · intro i j hi hj
    left
    refine ⟨((i, j), i * nNE + j), ?_, rfl⟩
    rw [← hp.mem_iff]
    simp only [explodeTopoW, List.mem_flatMap, List.mem_range, List.mem_map]
    exact ⟨i, hi, j, hj, rfl⟩

/-- Any array filled block by block. -/
theorem arrayBlocks_closed {nE nNE : Nat} {f : Nat → Nat → Option α} {rows : List (List α)} (zero : α)
    (hl : rows.length = nE) (hr : ∀ r ∈ rows, r.length = nNE)
    (hf : ∀ i j, i < nE → j < nNE → f i j = nodeAt rows i j) {w : List (Nat × Option α)}
    (hp : ((List.range nE).flatMap fun i => (List.range nNE).map fun j => (i * nNE + j, f i j)).Perm w) :
    arrayOf zero (nE * nNE) w = some rows.flatten := by
  have hfl : ∀ i j, j < nNE → rows.flatten[i * nNE + j]? = nodeAt rows i j := by
    intro i j hj
    rw [← List.flatMap_id, getElem?_flatMap_block (f := id) hr hj]; rfl
  apply arrayOf_eq
  · rw [← List.flatMap_id, length_flatMap_block (f := id) hr, hl, Nat.mul_comm]
  · intro x hx
    rw [← hp.mem_iff] at hx
    simp only [List.mem_flatMap, List.mem_range, List.mem_map] at hx
    obtain ⟨i, hi, j, hj, rfl⟩ := hx
    rw [hf i j hi hj, hfl i j hj]
  · intro k hk
    rw [Nat.mul_comm] at hk
    obtain ⟨i, j, hi, hj, rfl⟩ := mixed_radix_exists hk
    refine ⟨(i * nNE + j, f i j), ?_, rfl⟩
    rw [← hp.mem_iff]
    simp only [List.mem_flatMap, List.mem_range, List.mem_map]
    exact ⟨i, hi, j, hj, rfl⟩

theorem explodeCoord_closed {coords : List α} {topo : Topo} {nNE : Nat} (hr : ∀ r ∈ topo, r.length = nNE)
    (hin : ∀ r ∈ topo, ∀ n ∈ r, n < coords.length) (zero : α) {w : List (Nat × Option α)}
    (hp : (explodeCoordW coords topo nNE).Perm w) :
    arrayOf zero (topo.length * nNE) w = some (topo.map (List.map fun n => coords.getD n zero)).flatten := by
  refine arrayBlocks_closed zero (by simp) ?_ ?_ hp
  · intro x hx
    obtain ⟨r, h, rfl⟩ := List.mem_map.1 hx
    simp [hr r h]
  · intro i j hi hj
    obtain ⟨n, h1, h2, h3, h4⟩ := coordAt_some hr hin zero hi hj
    rw [h3, h4]
    have hj' : j < topo[i].length := by rw [hr _ (List.getElem_mem hi)]; exact hj
    rw [nodeAt, List.getElem?_eq_getElem hi] at h1
    change (topo[i])[j]? = some n at h1
    simp only [nodeAt, List.getElem?_map, List.getElem?_eq_getElem hi, Option.map_some]
    change _ = (List.map (fun n => coords.getD n zero) topo[i])[j]?
    rw [List.getElem?_map, h1]; rfl

theorem isExploded_closed {coords : List α} {topo : Topo} {nNE : Nat} (hr : ∀ r ∈ topo, r.length = nNE)
    (hin : ∀ r ∈ topo, ∀ n ∈ r, n < coords.length) (zero : α) :
    IsExploded coords topo nNE (topo.map (List.map fun n => coords.getD n zero)).flatten
      ((List.range topo.length).map fun i => (List.range nNE).map fun j => i * nNE + j) := by
  have hrows : ∀ r ∈ topo.map (List.map fun n => coords.getD n zero), r.length = nNE := by
    intro x hx
    obtain ⟨r, h, rfl⟩ := List.mem_map.1 hx
    simp [hr r h]
  refine ⟨?_, by simp, ?_, ?_, ?_⟩
  · rw [← List.flatMap_id, length_flatMap_block (f := id) hrows, List.length_map, Nat.mul_comm]
  · intro r hx
    obtain ⟨i, _, rfl⟩ := List.mem_map.1 hx
    simp
  · rw [← List.flatMap_def, range_blocks]
  · intro i j n h
    have hil : i < topo.length := by
      rw [nodeAt] at h
      by_contra hc
      rw [List.getElem?_eq_none (by omega)] at h; cases h
    have hrow : (topo[i])[j]? = some n := by
      rw [nodeAt, List.getElem?_eq_getElem hil] at h; exact h
    have hj : j < nNE := by
      have := (List.getElem?_eq_some_iff.1 hrow).1
      rwa [hr _ (List.getElem_mem hil)] at this
    have hn : n < coords.length := hin _ (List.getElem_mem hil) _ (List.mem_of_getElem? hrow)
    refine ⟨i * nNE + j, by simp [nodeAt, List.getElem?_range hil, List.getElem?_range hj], ?_⟩
    rw [← List.flatMap_id, getElem?_flatMap_block (f := id) hrows hj, List.getElem?_map, List.getElem?_eq_getElem hil]
    change (List.map (fun n => coords.getD n zero) topo[i])[j]? = _
    rw [List.getElem?_map, hrow, Option.map_some, List.getD_eq_getElem?_getD, List.getElem?_eq_getElem hn]
    rfl

/-- **C23** `explode_mesh` without data, in any order of its assignments (**C20**). -/
theorem C23_explode {coords : List α} {topo : Topo} {nNE : Nat} (hr : ∀ r ∈ topo, r.length = nNE)
    (hin : ∀ r ∈ topo, ∀ n ∈ r, n < coords.length) (zero : α) {wc : List (Nat × Option α)}
    {wt : List ((Nat × Nat) × Nat)} (hc : (explodeCoordW coords topo nNE).Perm wc)
    (ht : (explodeTopoW topo.length nNE).Perm wt) :
    ∃ C T, explodeWith zero topo.length nNE wc wt = some (C, T) ∧ IsExploded coords topo nNE C T := by
  refine ⟨_, _, ?_, isExploded_closed hr hin zero⟩
  rw [explodeWith, explodeCoord_closed hr hin zero hc, explodeTopo_closed ht]

/-- **C23** `explode_mesh` with data: the datum of a point is that of the node of the cell it was made from. -/
theorem C23_explode_data {coords : List α} {topo : Topo} {nNE : Nat} (hr : ∀ r ∈ topo, r.length = nNE)
    (hin : ∀ r ∈ topo, ∀ n ∈ r, n < coords.length) {data : List (List β)} (hd : data.length = topo.length)
    (hdr : ∀ r ∈ data, r.length = nNE) (zero : α) (zero' : β) {wc : List (Nat × Option α)}
    {wt : List ((Nat × Nat) × Nat)} {wd : List (Nat × Option β)} (hc : (explodeCoordW coords topo nNE).Perm wc)
    (ht : (explodeTopoW topo.length nNE).Perm wt) (hw : (explodeDataW topo.length data nNE).Perm wd) :
    ∃ C T D, explodeDataWith zero zero' topo.length nNE wc wt wd = some (C, T, D) ∧ IsExploded coords topo nNE C T ∧
      D.length = C.length ∧ ∀ i j m, nodeAt T i j = some m → D[m]? = nodeAt data i j := by
  have h := isExploded_closed hr hin zero
  refine ⟨_, _, data.flatten, ?_, h, ?_, ?_⟩
  · rw [explodeDataWith, explodeCoord_closed hr hin zero hc, explodeTopo_closed ht,
      arrayBlocks_closed zero' hd hdr (fun _ _ _ _ => rfl) hw]
  · rw [h.points, ← List.flatMap_id, length_flatMap_block (f := id) hdr, hd, Nat.mul_comm]
  · intro i j m hm
    rw [nodeAt, List.getElem?_map] at hm
    have hi : i < topo.length := by
      by_contra hc
      rw [List.getElem?_eq_none (by simp; omega)] at hm; cases hm
    rw [List.getElem?_range hi] at hm
    change (List.map (fun j => i * nNE + j) (List.range nNE))[j]? = some m at hm
    have hj : j < nNE := by simpa using (List.getElem?_eq_some_iff.1 hm).1
    rw [List.getElem?_map, List.getElem?_range hj] at hm
    have : m = i * nNE + j := (Option.some.inj hm).symm
    subst this
    rw [← List.flatMap_id, getElem?_flatMap_block (f := id) hdr hj]
    rfl

/-- **C23** a scalar per cell, repeated for its nodes, is found at every exploded point of the cell. -/
theorem C23_explode_cell_scalars {coords : List α} {topo : Topo} {nNE : Nat} (hr : ∀ r ∈ topo, r.length = nNE)
    (hin : ∀ r ∈ topo, ∀ n ∈ r, n < coords.length) {d : List β} (hd : d.length = topo.length) (zero : α) (zero' : β) :
    ∃ C T D, explodeData zero zero' coords topo (d.map (List.replicate nNE)) nNE = some (C, T, D) ∧
      IsExploded coords topo nNE C T ∧ D.length = C.length ∧ ∀ i j m, nodeAt T i j = some m → D[m]? = d[i]? := by
  obtain ⟨C, T, D, h1, h2, h3, h4⟩ := C23_explode_data hr hin (data := d.map (List.replicate nNE)) (by simpa using hd)
    (by intro r hx; obtain ⟨v, _, rfl⟩ := List.mem_map.1 hx; simp) zero zero' (.refl _) (.refl _) (.refl _)
  refine ⟨C, T, D, h1, h2, h3, ?_⟩
  intro i j m hm
  rw [h4 i j m hm, nodeAt, List.getElem?_map]
  have hi : i < T.length := by
    rw [nodeAt] at hm
    by_contra hc
    rw [List.getElem?_eq_none (by omega)] at hm; cases hm
  have hj : j < nNE := by
    rw [nodeAt, List.getElem?_eq_getElem hi] at hm
    change (T[i])[j]? = some m at hm
    have := (List.getElem?_eq_some_iff.1 hm).1
    rwa [h2.width _ (List.getElem_mem hi)] at this
  have hid : i < d.length := by rw [hd, ← h2.cells]; exact hi
  rw [List.getElem?_eq_getElem hid]
  change (List.replicate nNE d[i])[j]? = _
  rw [List.getElem?_replicate, if_pos hj]

example : explodeData (0 : Nat) (0 : Nat) [10, 11, 12] [[0, 1], [2, 1]] [[7, 7], [8, 8]] 2 =
    some ([10, 11, 12, 11], [[0, 1], [2, 3]], [7, 7, 8, 8]) := by decide

/-- **C20** `explode_mesh`: any order of the assignments gives the result of the sequential run. -/
theorem C20_explode_schedule {coords : List α} {topo : Topo} {nNE : Nat} (hr : ∀ r ∈ topo, r.length = nNE)
    (hin : ∀ r ∈ topo, ∀ n ∈ r, n < coords.length) {data : List (List β)} (hd : data.length = topo.length)
    (hdr : ∀ r ∈ data, r.length = nNE) (zero : α) (zero' : β) {wc : List (Nat × Option α)}
    {wt : List ((Nat × Nat) × Nat)} {wd : List (Nat × Option β)} (hc : (explodeCoordW coords topo nNE).Perm wc)
    (ht : (explodeTopoW topo.length nNE).Perm wt) (hw : (explodeDataW topo.length data nNE).Perm wd) :
    explodeWith zero topo.length nNE wc wt = explode zero coords topo nNE ∧
    explodeDataWith zero zero' topo.length nNE wc wt wd = explodeData zero zero' coords topo data nNE := by
  constructor
  · rw [explode, explodeWith, explodeWith, explodeCoord_closed hr hin zero hc, explodeTopo_closed ht,
      explodeCoord_closed hr hin zero (.refl _), explodeTopo_closed (.refl _)]
  · rw [explodeData, explodeDataWith, explodeDataWith, explodeCoord_closed hr hin zero hc, explodeTopo_closed ht,
      explodeCoord_closed hr hin zero (.refl _), explodeTopo_closed (.refl _),
      arrayBlocks_closed zero' hd hdr (fun _ _ _ _ => rfl) hw,
      arrayBlocks_closed zero' hd hdr (fun _ _ _ _ => rfl) (show (explodeDataW topo.length data nNE).Perm (explodeDataW topo.length data nNE) from .refl _)]

/-! ## decompose -/

theorem foldl_set_length (w : List (Nat × α)) (out : List α) :
    (w.foldl (fun a x => a.set x.1 x.2) out).length = out.length := by
  induction w generalizing out with
  | nil => rfl
  | cons x w ih => rw [List.foldl_cons, ih, List.length_set]

theorem foldl_set_get (w : List (Nat × α)) (out : List α) {n : Nat} (hn : n < out.length) :
    (w.foldl (fun a x => a.set x.1 x.2) out)[n]? = runW (w.map fun x => (x.1, some x.2)) (fun n => out[n]?) n := by
  induction w generalizing out with
  | nil => rfl
  | cons x w ih =>
    rw [List.foldl_cons, ih _ (by simpa using hn), List.map_cons]
    change _ = runW _ (Function.update _ _ _) n
    have : ∀ m m' : Nat → Option α, m n = m' n → ∀ v : List (Nat × Option α), runW v m n = runW v m' n := by
      intro m m' h v
      induction v generalizing m m' with
      | nil => exact h
      | cons y v ih => exact ih _ _ (by
        by_cases hy : n = y.1
        · simp [Function.update, hy]
        · simpa [Function.update, hy] using h)
    apply this
    by_cases hx : x.1 = n
    · subst hx; simp [hn]
    · rw [List.getElem?_set_ne hx, Function.update_of_ne (Ne.symm hx)]

/-- **C23** `decompose` undoes the explosion: given the points of the cells it writes, in any order, the original
position of every node used by the cells and nothing else. -/
theorem C23_decompose {coords : List α} {topo : Topo} {E : List (List α)} (hE : IsCellsCoords coords topo E)
    {out : List α} (hin : ∀ r ∈ topo, ∀ n ∈ r, n < coords.length ∧ n < out.length) :
    ∃ w, decomposeW E topo = some w ∧ ∀ w', w.Perm w' → ∃ out', writeAll w' out = some out' ∧
      out'.length = out.length ∧ (∀ n, UsesNode topo n → out'[n]? = coords[n]?) ∧
      ∀ n, ¬ UsesNode topo n → out'[n]? = out[n]? := by
  have hlt : ∀ e ∈ entriesOf topo, ∃ v, nodeAt E e.cell e.pos = some v ∧ coords[e.node]? = some v ∧ e.node < out.length := by
    intro e he
    have h1 := mem_entriesOf.1 he
    have h2 := mem_flatten_of_nodeAt h1
    rw [List.mem_flatten] at h2
    obtain ⟨r, hr, hn⟩ := h2
    obtain ⟨h3, h4⟩ := hin r hr _ hn
    refine ⟨coords[e.node], ?_, List.getElem?_eq_getElem h3, h4⟩
    rw [(hE.2 e.cell).2 _ _ h1, List.getElem?_eq_getElem h3]
  have hmap : decomposeW E topo = some ((entriesOf topo).filterMap fun e => (coords[e.node]?).map fun v => (e.node, v)) := by
    unfold decomposeW
    have : ∀ l : List Entry, (∀ e ∈ l, e ∈ entriesOf topo) →
        (l.mapM fun e => (nodeAt E e.cell e.pos).map fun v => (e.node, v)) =
          some (l.filterMap fun e => (coords[e.node]?).map fun v => (e.node, v)) := by
      intro l hl
      induction l with
      | nil => rfl
      | cons e l ih =>
        obtain ⟨v, h1, h2, _⟩ := hlt e (hl e List.mem_cons_self)
        rw [List.mapM_cons, ih fun x hx => hl x (List.mem_cons_of_mem _ hx), List.filterMap_cons, h1, h2]
        rfl
    exact this _ fun _ h => h
  refine ⟨_, hmap, ?_⟩
  intro w' hp
  have hm : ∀ x, x ∈ w' ↔ UsesNode topo x.1 ∧ coords[x.1]? = some x.2 := by
    intro x
    rw [← hp.mem_iff, List.mem_filterMap]
    constructor
    · rintro ⟨e, he, hx⟩
      rw [Option.map_eq_some_iff] at hx
      obtain ⟨v, hv, rfl⟩ := hx
      refine ⟨?_, hv⟩
      have := mem_flatten_of_nodeAt (mem_entriesOf.1 he)
      rw [List.mem_flatten] at this
      exact this
    · rintro ⟨⟨r, hr, hn⟩, hv⟩
      obtain ⟨c, j, h⟩ := exists_nodeAt_of_mem (List.mem_flatten.2 ⟨r, hr, hn⟩)
      exact ⟨⟨c, j, x.1⟩, mem_entriesOf.2 h, by simp [hv]⟩
  have hall : ∀ x ∈ w', x.1 < out.length := by
    intro x hx
    obtain ⟨⟨r, hr, hn⟩, _⟩ := (hm x).1 hx
    exact (hin r hr _ hn).2
  refine ⟨_, if_pos hall, foldl_set_length _ _, ?_, ?_⟩
  · rintro n ⟨r, hr, hn⟩
    obtain ⟨h1, h2⟩ := hin r hr n hn
    rw [foldl_set_get _ _ h2]
    have hc : Consistent (w'.map fun x => (x.1, some x.2)) := by
      intro x hx y hy hxy
      obtain ⟨a, ha, rfl⟩ := List.mem_map.1 hx
      obtain ⟨b, hb, rfl⟩ := List.mem_map.1 hy
      rw [← ((hm a).1 ha).2, ← ((hm b).1 hb).2]
      exact congrArg (fun i => coords[i]?) hxy
    have hmem : (n, coords[n]) ∈ w' := (hm _).2 ⟨⟨r, hr, hn⟩, List.getElem?_eq_getElem h1⟩
    have := runW_of_mem hc (m := fun n => out[n]?) (List.mem_map_of_mem hmem)
    rw [this, List.getElem?_eq_getElem h1]
  · intro n hn
    by_cases h2 : n < out.length
    · rw [foldl_set_get _ _ h2, runW_of_not_mem]
      intro x hx
      obtain ⟨a, ha, rfl⟩ := List.mem_map.1 hx
      rintro rfl
      exact hn ((hm a).1 ha).1
    · rw [List.getElem?_eq_none (by rw [foldl_set_length]; omega), List.getElem?_eq_none (by omega)]

example : decompose [[10, 11], [12, 11]] [[0, 1], [3, 1]] [0, 0, 5, 0] = some [10, 11, 5, 12] := by decide

end PM
