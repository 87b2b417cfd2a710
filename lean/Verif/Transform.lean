import Verif.TopoLemmas
import Mathlib.Data.List.ProdSigma

/-!
# Model of the topology transformations in `src/polymesh/utils/topology/tr.py` (62-204)
-/

namespace PM

variable {α : Type}

/-- `topo[i, path[k, j]]`; `none` if any index is out of range (unchecked in compiled code). -/
def pick? (topo : List (List α)) (path : List (List Nat)) (i k j : Nat) : Option α := do
  let q ← nodeAt path k j
  nodeAt topo i q

/-- The assignments of `_transform_topology_`, tr.py 167-177, in the order of a sequential run:
`res[iE * nSub + kE, jE] = topo[iE, path[kE, jE]]`. `nSubN` is `path.shape[1]`. -/
def transformWrites (topo : List (List α)) (path : List (List Nat)) (nSubN : Nat) :
    List ((Nat × Nat) × Option α) :=
  (List.range topo.length).flatMap fun i => (List.range nSubN).flatMap fun j =>
    (List.range path.length).map fun k => ((i * path.length + k, j), pick? topo path i k j)

/-- The array left behind by the assignments `w` on `np.zeros((nSub * nE, nSubN))`. -/
def transformResult (topo : List (List α)) (path : List (List Nat)) (nSubN : Nat) (zero : α)
    (w : List ((Nat × Nat) × Option α)) : Option (List (List α)) :=
  (toRows (path.length * topo.length) nSubN (runW w fun _ => some zero)).mapM fun r => r.mapM id

/-- `_transform_topology_` (sequential schedule). -/
def transformTopology (topo : List (List α)) (path : List (List Nat)) (nSubN : Nat) (zero : α) :
    Option (List (List α)) :=
  transformResult topo path nSubN zero (transformWrites topo path nSubN)

/-- The assignments of `repeat_cell_nodal_data`, tr.py 180-191 (loop order `i, j, k`). -/
def repeatWrites (edata : List (List α)) (path : List (List Nat)) (nSubN : Nat) :
    List ((Nat × Nat) × Option α) :=
  (List.range edata.length).flatMap fun i => (List.range path.length).flatMap fun j =>
    (List.range nSubN).map fun k => ((path.length * i + j, k), pick? edata path i j k)

/-- `repeat_cell_nodal_data`, tr.py 180-191. -/
def repeatCellNodalData (edata : List (List α)) (path : List (List Nat)) (nSubN : Nat) (zero : α) :
    Option (List (List α)) :=
  transformResult edata path nSubN zero (repeatWrites edata path nSubN)

/-- `np.repeat(data, n, axis=0)`. -/
def npRepeat {β : Type} (data : List β) (n : Nat) : List β := data.flatMap fun d => List.replicate n d

/-- `transform_topology_data`, tr.py 155-164, for a two-dimensional data array: `none` is the
`NotImplementedError`. `nNE` and `width` are `topo.shape[1]` and `data.shape[1]`. -/
def transformTopologyData (nE nNE : Nat) (data : List (List α)) (width : Nat) (path : List (List Nat))
    (nSubN : Nat) (zero : α) : Option (List (List α)) :=
  if data.length = nE ∧ width = nNE then repeatCellNodalData data path nSubN zero
  else if data.length = nE then some (npRepeat data path.length)
  else none

/-- `compose_trmap`, tr.py 194-204: rows are filled in the order of the counter `c`. -/
def composeTrmap (map1 map2 : List (List Nat)) : Option (List (List Nat)) :=
  (map1.flatMap fun r => map2.map fun p => p.mapM fun q => r[q]?).mapM id

/-! ## lemmas -/

/-- Position in a list, with the equality test fixed by decidable equality. -/
def posIn {β : Type} [LinearOrder β] (u : List β) (x : β) : Nat := u.idxOf x

theorem npUniqueInv_eq {β : Type} [LinearOrder β] (l : List β) :
    npUniqueInv l = l.map (posIn (npUnique l)) := rfl

theorem npUnique_getElem_posIn {β : Type} [LinearOrder β] {l : List β} {x : β} (h : x ∈ l) :
    (npUnique l)[posIn (npUnique l) x]? = some x := npUnique_getElem_idxOf h

theorem posIn_getElem {β : Type} [LinearOrder β] {u : List β} (h : u.Nodup) {k : Nat} (hk : k < u.length) :
    posIn u u[k] = k := h.idxOf_getElem _ hk

theorem posIn_inj {β : Type} [LinearOrder β] {u : List β} {x y : β} (h : x ∈ u) :
    posIn u x = posIn u y ↔ x = y := List.idxOf_inj h

theorem mapM_id_some {l : List (Option α)} {r : List α} (h : l = r.map some) : l.mapM id = some r := by
  subst h
  induction r with
  | nil => rfl
  | cons a r ih => rw [List.map_cons, List.mapM_cons, ih]; rfl

theorem toRows_eq {n k : Nat} {m : Nat × Nat → Option α} {r : List (List α)} (hl : r.length = n)
    (hk : ∀ x ∈ r, x.length = k) (h : ∀ i j, i < n → j < k → m (i, j) = nodeAt r i j) :
    (toRows n k m).mapM (fun r => r.mapM id) = some r := by
  have : toRows n k m = r.map (List.map some) := by
    apply List.ext_getElem?
    intro i
    by_cases hi : i < n
    · have hir : i < r.length := by omega
      rw [toRows_getElem? m hi, List.getElem?_map, List.getElem?_eq_getElem hir, Option.map_some]
      congr 1
      have hrk : r[i].length = k := hk _ (List.getElem_mem hir)
      apply List.ext_getElem?
      intro j
      by_cases hj : j < k
      · have hjr : j < r[i].length := by omega
        rw [List.getElem?_map, List.getElem?_range hj, Option.map_some, h i j hi hj]
        simp [nodeAt, List.getElem?_eq_getElem hir, List.getElem?_eq_getElem hjr]
      · rw [List.getElem?_eq_none (by simp; omega), List.getElem?_eq_none (by simp; omega)]
    · rw [List.getElem?_eq_none (by simp; omega), List.getElem?_eq_none (by simp; omega)]
  rw [this]
  rw [show (List.map (List.map some) r).mapM (fun r : List (Option α) => r.mapM id) = some r from ?_]
  clear this h hk hl
  induction r with
  | nil => rfl
  | cons a r ih => rw [List.map_cons, List.mapM_cons, ih, mapM_id_some rfl]; rfl

/-- Rows of a concatenation of blocks of equal size. -/
theorem getElem?_flatMap_block {β γ : Type} {l : List β} {f : β → List γ} {n : Nat}
    (h : ∀ x ∈ l, (f x).length = n) {i k : Nat} (hk : k < n) :
    (l.flatMap f)[i * n + k]? = l[i]? >>= fun x => (f x)[k]? := by
  induction l generalizing i with
  | nil => simp
  | cons a l ih =>
    have ha := h a List.mem_cons_self
    rw [List.flatMap_cons]
    cases i with
    | zero => simp [List.getElem?_append_left (by omega : k < (f a).length)]
    | succ i =>
      rw [List.getElem?_append_right (by rw [ha, Nat.succ_mul]; omega)]
      have : (i + 1) * n + k - (f a).length = i * n + k := by rw [ha, Nat.succ_mul]; omega
      rw [this, ih fun x hx => h x (List.mem_cons_of_mem _ hx)]
      simp

theorem length_flatMap_block {β γ : Type} {l : List β} {f : β → List γ} {n : Nat}
    (h : ∀ x ∈ l, (f x).length = n) : (l.flatMap f).length = n * l.length := by
  induction l with
  | nil => simp
  | cons a l ih =>
    rw [List.flatMap_cons, List.length_append, ih fun x hx => h x (List.mem_cons_of_mem _ hx),
      h a List.mem_cons_self, List.length_cons]
    rw [Nat.mul_succ, Nat.add_comm]

/-- The path fits the cells: rectangular, and inside every cell. -/
structure PathOK (topo : List (List α)) (path : List (List Nat)) (nSubN : Nat) : Prop where
  rect : ∀ p ∈ path, p.length = nSubN
  inside : ∀ cell ∈ topo, ∀ p ∈ path, ∀ q ∈ p, q < cell.length

/-- Closed form of the transformed topology. -/
def transformed (topo : List (List α)) (path : List (List Nat)) (zero : α) : List (List α) :=
  topo.flatMap fun cell => path.map fun p => p.map fun q => cell.getD q zero

theorem length_transformed (topo : List (List α)) (path : List (List Nat)) (zero : α) :
    (transformed topo path zero).length = path.length * topo.length :=
  length_flatMap_block fun _ _ => by simp

theorem transformed_row {topo : List (List α)} {path : List (List Nat)} {zero : α} {i k : Nat}
    (hk : k < path.length) : (transformed topo path zero)[i * path.length + k]? =
      topo[i]? >>= fun cell => (path[k]?).map fun p => p.map fun q => cell.getD q zero := by
  unfold transformed
  rw [getElem?_flatMap_block (fun _ _ => by simp) hk]
  cases topo[i]? with
  | none => rfl
  | some c => simp

theorem pick?_eq {topo : List (List α)} {path : List (List Nat)} {nSubN : Nat} (h : PathOK topo path nSubN)
    {zero : α} {i k j : Nat} (hi : i < topo.length) (hk : k < path.length) (hj : j < nSubN) :
    ∃ v, pick? topo path i k j = some v ∧
      nodeAt (transformed topo path zero) (i * path.length + k) j = some v := by
  have hp := List.getElem_mem hk
  have hpl := h.rect _ hp
  have hjl : j < path[k].length := by omega
  have hq := h.inside _ (List.getElem_mem hi) _ hp _ (List.getElem_mem hjl)
  refine ⟨topo[i][path[k][j]], ?_, ?_⟩
  · simp [pick?, nodeAt, List.getElem?_eq_getElem hk, List.getElem?_eq_getElem hjl,
      List.getElem?_eq_getElem hi, List.getElem?_eq_getElem hq]
  · simp [nodeAt, transformed_row hk, List.getElem?_eq_getElem hk, List.getElem?_eq_getElem hjl,
      List.getElem?_eq_getElem hi, List.getElem?_eq_getElem hq]

theorem mem_transformWrites {topo : List (List α)} {path : List (List Nat)} {nSubN : Nat}
    {x : (Nat × Nat) × Option α} : x ∈ transformWrites topo path nSubN ↔
      ∃ i j k, i < topo.length ∧ j < nSubN ∧ k < path.length ∧
        x = ((i * path.length + k, j), pick? topo path i k j) := by
  simp only [transformWrites, List.mem_flatMap, List.mem_range, List.mem_map]
  constructor
  · rintro ⟨i, hi, j, hj, k, hk, rfl⟩; exact ⟨i, j, k, hi, hj, hk, rfl⟩
  · rintro ⟨i, j, k, hi, hj, hk, rfl⟩; exact ⟨i, hi, j, hj, k, hk, rfl⟩

theorem mem_repeatWrites {topo : List (List α)} {path : List (List Nat)} {nSubN : Nat}
    {x : (Nat × Nat) × Option α} : x ∈ repeatWrites topo path nSubN ↔
      ∃ i j k, i < topo.length ∧ j < nSubN ∧ k < path.length ∧
        x = ((i * path.length + k, j), pick? topo path i k j) := by
  simp only [repeatWrites, List.mem_flatMap, List.mem_range, List.mem_map]
  constructor
  · rintro ⟨i, hi, j, hj, k, hk, rfl⟩; exact ⟨i, k, j, hi, hk, hj, by rw [Nat.mul_comm]⟩
  · rintro ⟨i, j, k, hi, hj, hk, rfl⟩; exact ⟨i, hi, k, hk, j, hj, by rw [Nat.mul_comm]⟩

/-- mixed radix decomposition is unique -/
theorem mixed_radix_inj {n i k i' k' : Nat} (hk : k < n) (hk' : k' < n) (h : i * n + k = i' * n + k') :
    i = i' ∧ k = k' := by
  have hn : 0 < n := by omega
  have h1 : (i * n + k) / n = i := by
    rw [Nat.mul_comm, Nat.mul_add_div hn, Nat.div_eq_of_lt hk, Nat.add_zero]
  have h2 : (i' * n + k') / n = i' := by
    rw [Nat.mul_comm, Nat.mul_add_div hn, Nat.div_eq_of_lt hk', Nat.add_zero]
  have : i = i' := by rw [← h1, h, h2]
  subst this
  exact ⟨rfl, by omega⟩

theorem mixed_radix_exists {n m r : Nat} (h : r < n * m) : ∃ i k, i < m ∧ k < n ∧ r = i * n + k := by
  have hn : 0 < n := Nat.pos_of_ne_zero (by rintro rfl; simp at h)
  refine ⟨r / n, r % n, ?_, Nat.mod_lt _ hn, ?_⟩
  · exact Nat.div_lt_of_lt_mul h
  · rw [Nat.mul_comm]; exact (Nat.div_add_mod r n).symm

/-- Any list of assignments with the same members as the loop's gives the closed form. -/
theorem transformResult_eq {topo : List (List α)} {path : List (List Nat)} {nSubN : Nat}
    (h : PathOK topo path nSubN) (zero : α) {w : List ((Nat × Nat) × Option α)}
    (hw : ∀ x, x ∈ w ↔ ∃ i j k, i < topo.length ∧ j < nSubN ∧ k < path.length ∧
        x = ((i * path.length + k, j), pick? topo path i k j)) :
    transformResult topo path nSubN zero w = some (transformed topo path zero) := by
  have hc : Consistent w := by
    intro x hx y hy hxy
    obtain ⟨i, j, k, hi, hj, hk, rfl⟩ := (hw x).1 hx
    obtain ⟨i', j', k', hi', hj', hk', rfl⟩ := (hw y).1 hy
    obtain ⟨h1, h2⟩ := Prod.mk.inj hxy
    obtain ⟨rfl, rfl⟩ := mixed_radix_inj hk hk' h1
    subst h2; rfl
  unfold transformResult
  apply toRows_eq (length_transformed _ _ _)
  · intro x hx
    simp only [transformed, List.mem_flatMap, List.mem_map] at hx
    obtain ⟨c, _, p, hp, rfl⟩ := hx
    simp [h.rect p hp]
  · intro r j hr hj
    obtain ⟨i, k, hi, hk, rfl⟩ := mixed_radix_exists hr
    obtain ⟨v, hv, hv'⟩ := pick?_eq h (zero := zero) hi hk hj
    rw [hv', ← hv]
    exact runW_of_mem hc ((hw _).2 ⟨i, j, k, hi, hj, hk, rfl⟩)

end PM
