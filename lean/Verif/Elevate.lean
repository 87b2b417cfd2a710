import Verif.Cells
import Mathlib.Data.List.GetD

/-!
# Order elevation, `src/polymesh/utils/topology/tr.py` 529-612, 676-691

`L2_to_L3`, `T3_to_T6`, `Q4_to_Q8`, `Q4_to_Q9`, `TET4_to_TET10`, `H8_to_H27` and `W6_to_W18` share one scheme: list
the edges (faces) of all cells, number them with `unique_topo_data`, put a point at the mean of the nodes of each
different edge (face), and append the numbers, shifted by the number of points so far, as new columns.
-/

namespace PM
open V3

section
variable {K : Type} [Field K]

/-- `np.mean(coords[row], axis=0)` for the gathered points. -/
def meanPts (l : List (V3 K)) : V3 K :=
  ⟨(l.map V3.x).sum / l.length, (l.map V3.y).sum / l.length, (l.map V3.z).sum / l.length⟩

/-- `np.mean(coords[rows], axis=1)`, tr.py 532 etc.; `none` for node numbers out of range. -/
def meanRows (coords : List (V3 K)) (rows : List (List Nat)) : Option (List (V3 K)) :=
  rows.mapM fun r => (r.mapM fun n => coords[n]?).map meanPts

/-- `edges_*`/`faces_*` of one cell from the table of local numbers (see `Verif/Cells.lean`). -/
def cellEntities (table : List (List Nat)) (cell : List Nat) : Option (List (List Nat)) :=
  table.mapM fun t => t.mapM fun q => cell[q]?

/-- One stage: tr.py 597-599 (edges), 602-604 (faces). Returns the new points and the new columns. -/
def elevStep (coords : List (V3 K)) (topo : Topo) (table : List (List Nat)) (nP : Nat) :
    Option (List (V3 K) × Topo) := do
  let ent ← topo.mapM (cellEntities table)
  let (u, ids) := uniqueTopoData ent
  let pts ← meanRows coords u
  return (pts, ids.map (List.map (· + nP)))

/-- Several stages one after the other; the second component holds all new columns. -/
def elevGo (coords : List (V3 K)) (topo : Topo) : List (List (List Nat)) → Nat → Option (List (V3 K) × Topo)
  | [], _ => some ([], topo.map fun _ => [])
  | tab :: rest, nP => do
    let (c1, t1) ← elevStep coords topo tab nP
    let (c2, t2) ← elevGo coords topo rest (nP + c1.length)
    return (c1 ++ c2, List.zipWith (· ++ ·) t1 t2)

/-- `np.hstack((topo, ...))`, `np.vstack((coords, ...))`. -/
def elevate (tables : List (List (List Nat))) (coords : List (V3 K)) (topo : Topo) : Option (List (V3 K) × Topo) := do
  let (c, t) ← elevGo coords topo tables coords.length
  return (coords ++ c, List.zipWith (· ++ ·) topo t)

/-- The same with a node at the centre of every cell appended at the end, tr.py 572-579, 606-612:
`coords_c = np.mean(ecoords, axis=1)`, `topo_c = np.arange(nE) + nP`. -/
def elevateC (tables : List (List (List Nat))) (coords : List (V3 K)) (topo : Topo) : Option (List (V3 K) × Topo) := do
  let (c, t) ← elevate tables coords topo
  let cc ← meanRows coords topo
  return (c ++ cc, List.zipWith (· ++ ·) t ((List.range topo.length).map fun i => [i + c.length]))

/-- `T3_to_T6`, tr.py 545-552. -/
def t3ToT6 (coords : List (V3 K)) (topo : Topo) := elevate [edgeIdsT3] coords topo
/-- `Q4_to_Q8`, tr.py 555-562. -/
def q4ToQ8 (coords : List (V3 K)) (topo : Topo) := elevate [edgeIdsQ4] coords topo
/-- `Q4_to_Q9`, tr.py 565-579. -/
def q4ToQ9 (coords : List (V3 K)) (topo : Topo) := elevateC [edgeIdsQ4] coords topo
/-- `TET4_to_TET10`, tr.py 582-590. -/
def tet4ToTet10 (coords : List (V3 K)) (topo : Topo) := elevate [edgeIdsTET4] coords topo
/-- `H8_to_H27`, tr.py 593-612. -/
def h8ToH27 (coords : List (V3 K)) (topo : Topo) := elevateC [edgeIdsH8, faceIdsH8] coords topo
/-- What `W6_to_W18`, tr.py 676-691, computes if the misplaced write of `faces_W6` has no effect. -/
def w6ToW18Quads (coords : List (V3 K)) (topo : Topo) := elevate [edgeIdsW6, faceIdsW6] coords topo
/-- `W6_to_W18` with `faces_W6` as it is. -/
def w6ToW18 (coords : List (V3 K)) (topo : Topo) : Option (List (V3 K) × Topo) := do
  let _ ← colTable 2 3 faces2W6W
  w6ToW18Quads coords topo
/-- tr.py 536-539 on one row: exchange of columns 1 and 2. -/
def ikj : List Nat → Option (List Nat)
  | [i, j, k] => some [i, k, j]
  | _ => none
/-- `L2_to_L3`, tr.py 529-542, `order="ikj"`: the new column is moved between the two old ones. -/
def l2ToL3 (coords : List (V3 K)) (topo : Topo) : Option (List (V3 K) × Topo) := do
  let (c, t) ← elevate [[[0, 1]]] coords topo
  let t' ← t.mapM ikj
  return (c, t')

/-! ## specification and lemmas -/

/-- The nodes of an entity of a cell. -/
def entNodes (table : List (List Nat)) (cell : List Nat) (e : Nat) : List Nat :=
  (table.getD e []).map fun q => cell.getD q 0

/-- Coordinates of listed points. -/
def ptsOf (coords : List (V3 K)) (nodes : List Nat) : List (V3 K) := nodes.map fun n => coords.getD n 0

theorem meanPts_perm {l l' : List (V3 K)} (h : l.Perm l') : meanPts l = meanPts l' := by
  unfold meanPts
  rw [(h.map V3.x).sum_eq, (h.map V3.y).sum_eq, (h.map V3.z).sum_eq, h.length_eq]

/-- A mesh the conversion accepts: cells of `n` nodes, all existing, and a table inside the cell. -/
structure MeshOK (coords : List (V3 K)) (topo : Topo) (n : Nat) : Prop where
  len : ∀ c ∈ topo, c.length = n
  lt : ∀ c ∈ topo, ∀ x ∈ c, x < coords.length

/-- Result of one or several stages. `off` is the column where table `k` begins. -/
structure ElevOK (coords : List (V3 K)) (topo : Topo) (tables : List (List (List Nat))) (nP : Nat)
    (c : List (V3 K)) (t : Topo) : Prop where
  rows : t.length = topo.length
  cols : ∀ r ∈ t, r.length = (tables.map List.length).sum
  place : ∀ (k e i : Nat) (tab : List (List Nat)) (cell : List Nat), tables[k]? = some tab → e < tab.length →
    topo[i]? = some cell → ∃ m, nodeAt t i (((tables.take k).map List.length).sum + e) = some (nP + m) ∧
      c[m]? = some (meanPts (ptsOf coords (entNodes tab cell e)))
  same : ∀ (k e i k' e' i' : Nat) (tab tab' : List (List Nat)) (cell cell' : List Nat),
    tables[k]? = some tab → e < tab.length → topo[i]? = some cell →
    tables[k']? = some tab' → e' < tab'.length → topo[i']? = some cell' →
    (nodeAt t i (((tables.take k).map List.length).sum + e) =
      nodeAt t i' (((tables.take k').map List.length).sum + e') ↔
      k = k' ∧ (entNodes tab cell e).Perm (entNodes tab' cell' e'))
  used : ∀ m, m < c.length → ∃ (i j : Nat), nodeAt t i j = some (nP + m)

theorem cellEntities_eq {table : List (List Nat)} {cell : List Nat} (h : ∀ t ∈ table, ∀ q ∈ t, q < cell.length) :
    cellEntities table cell = some (table.map (List.map fun q => cell.getD q 0)) := by
  unfold cellEntities
  apply mapM_some
  intro t ht
  apply mapM_some
  intro q hq
  simp [List.getElem?_eq_getElem (h t ht q hq)]

theorem nodeAt_map' {α β : Type} (f : α → β) (t : List (List α)) (i j : Nat) :
    nodeAt (t.map (List.map f)) i j = (nodeAt t i j).map f := by
  unfold nodeAt
  rw [List.getElem?_map]
  cases t[i]? with
  | none => rfl
  | some r => simp

theorem length_eq_of_map_length {α β : Type} {t : List (List α)} {s : List (List β)}
    (h : t.map List.length = s.map List.length) : t.length = s.length := by
  have := congrArg List.length h
  simpa using this

end

end PM
