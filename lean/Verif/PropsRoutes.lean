import Verif.PropsConvert
import Verif.PropsGridEuler
import Mathlib.Tactic.IntervalCases
import Mathlib.Data.List.Rotate

/-!
# C135: cutting and elevating in either order

`H8_to_H27` followed by `H27_to_TET10` against `H8_to_TET4` followed by `TET4_to_TET10`, `Q4_to_Q9` followed by `Q9_to_T6` against
`Q4_to_T3` followed by `T3_to_T6`, and `Q4_to_Q9`, `Q9_to_Q4`, `Q4_to_T3` against `Q4_to_T3`, `T3_to_T6`, `T6_to_T3`.
-/

namespace PM
open V3

/-! ## specification -/

section
variable {K : Type} [Field K]

/-- The face of a cell with these local corners, in the order of a walk around it, is a parallelogram. -/
def Parallelogram (coords : List (V3 K)) (cell : List Nat) (a b c d : Nat) : Prop :=
  coords.getD (cell.getD a 0) 0 + coords.getD (cell.getD c 0) 0 = coords.getD (cell.getD b 0) 0 + coords.getD (cell.getD d 0) 0

/-- All faces of a hexahedron are parallelograms. -/
def BoxLike (coords : List (V3 K)) (cell : List Nat) : Prop :=
  Parallelogram coords cell 0 4 7 3 ∧ Parallelogram coords cell 1 2 6 5 ∧ Parallelogram coords cell 0 1 5 4 ∧
    Parallelogram coords cell 2 3 7 6 ∧ Parallelogram coords cell 0 3 2 1 ∧ Parallelogram coords cell 4 5 6 7

/-- Cell `i` of both meshes has its nodes at the same places, in the same order. -/
def SamePlaces (c : List (V3 K)) (t : Topo) (c' : List (V3 K)) (t' : Topo) (i : Nat) : Prop :=
  (t.getD i []).map (fun n => c[n]?) = (t'.getD i []).map (fun n => c'[n]?)

/-! ## lemmas -/

theorem parts_row {p : List (List Nat)} {topo t : Topo} (h : Parts p topo t) {i k : Nat} {cell row : List Nat} (hi : topo[i]? = some cell)
    (hk : p[k]? = some row) : t[i * p.length + k]? = some (row.map fun q => cell.getD q 0) := by
  obtain ⟨new, e, hl, hj⟩ := h.2 i k cell row hi hk
  rw [e]
  congr 1
  apply List.ext_getElem?
  intro j
  by_cases hjr : j < row.length
  · have := hj j _ (List.getElem?_eq_getElem hjr)
    rw [this.2, List.getElem?_map, List.getElem?_eq_getElem hjr, Option.map_some, List.getElem?_eq_getElem this.1]
    simp [List.getElem?_eq_getElem this.1]
  · rw [List.getElem?_eq_none (by omega), List.getElem?_eq_none (by simp; omega)]

/-- Place of node `j` of an elevated cell with corners at `X`: a corner, or the mean of the listed corners. -/
def elevPlace (n : Nat) (ents : List (List Nat)) (X : Nat → V3 K) (j : Nat) : V3 K :=
  if j < n then X j else meanPts ((ents.getD (j - n) []).map X)

/-- Corners of a cell. -/
def firstCorners (coords : List (V3 K)) (cell : List Nat) (q : Nat) : V3 K := coords.getD (cell.getD q 0) 0

theorem flatten_getD {α : Type} : ∀ (L : List (List (List α))) (k e : Nat) (tab : List (List α)), L[k]? = some tab → e < tab.length →
    L.flatten.getD (((L.take k).map List.length).sum + e) [] = tab.getD e []
  | [], k, e, tab, h, _ => by simp at h
  | t :: L, 0, e, tab, h, he => by
    simp only [List.getElem?_cons_zero, Option.some.injEq] at h
    subst h
    simp [List.flatten_cons, List.getD_eq_getElem?_getD, List.getElem?_append_left he]
  | t :: L, k + 1, e, tab, h, he => by
    have := flatten_getD L k e tab (by simpa using h) he
    rw [List.flatten_cons, List.take_succ_cons, List.map_cons, List.sum_cons, List.getD_append_right _ _ _ _ (by omega)]
    rw [← this]
    congr 1
    omega

/-- The rows of an elevated mesh and the places of their nodes. -/
theorem elevated_row {coords c : List (V3 K)} {topo t : Topo} {n w : Nat} {tables : List (List (List Nat))} (h : MeshOK coords topo n)
    (ok : Elevated coords topo n tables c t) (hw : ∀ r ∈ t, r.length = w) {i : Nat} {cell : List Nat} (hi : topo[i]? = some cell) :
    ∃ row, t[i]? = some row ∧ row.length = w ∧ (∀ q, q < n → row.getD q 0 = cell.getD q 0) ∧
      ∀ j, j < n + (tables.map List.length).sum →
        c[row.getD j 0]? = some (elevPlace n tables.flatten (firstCorners coords cell) j) := by
  have hil : i < topo.length := (List.getElem?_eq_some_iff.1 hi).1
  have hit : i < t.length := by rw [ok.cells]; exact hil
  have hcl : cell.length = n := h.len _ (List.mem_of_getElem? hi)
  have hrl := hw _ (List.getElem_mem hit)
  have hrow : t[i]? = some t[i] := List.getElem?_eq_getElem hit
  have hno : ∀ j, nodeAt t i j = t[i][j]? := fun j => by simp [nodeAt, hrow]
  have hcor : ∀ q, q < n → t[i].getD q 0 = cell.getD q 0 := by
    intro q hq
    have := ok.corners i q hq
    rw [hno] at this
    rw [List.getD_eq_getElem?_getD, this]
    simp [nodeAt, hi]
  refine ⟨t[i], hrow, hrl, hcor, ?_⟩
  intro j hj
  unfold elevPlace
  by_cases hjn : j < n
  · rw [if_pos hjn, hcor j hjn]
    have hm : cell.getD j 0 < coords.length := h.lt _ (List.mem_of_getElem? hi) _ (by
      rw [List.getD_eq_getElem?_getD, List.getElem?_eq_getElem (by omega), Option.getD_some]
      exact List.getElem_mem _)
    rw [ok.pts _ hm, firstCorners, List.getD_eq_getElem?_getD (l := coords), List.getElem?_eq_getElem hm]
    rfl
  · rw [if_neg hjn]
    obtain ⟨k, e, tab, hk, he, hje⟩ := exists_column tables (j - n) (by omega)
    obtain ⟨m, _, h2, h3⟩ := ok.place k e i tab cell hk he hi
    have hj' : j = n + ((tables.take k).map List.length).sum + e := by omega
    rw [← hj', hno] at h2
    rw [List.getD_eq_getElem?_getD, h2, Option.getD_some, h3, hje, flatten_getD _ _ _ _ hk he]
    congr 2
    simp only [ptsOf, entNodes, List.map_map]
    rfl

theorem elevPlace_congr {n : Nat} {ents : List (List Nat)} {X Y : Nat → V3 K} (h : ∀ q, q < n → X q = Y q)
    (he : ∀ e ∈ ents, ∀ q ∈ e, q < n) (j : Nat) : elevPlace n ents X j = elevPlace n ents Y j := by
  unfold elevPlace
  by_cases hj : j < n
  · rw [if_pos hj, if_pos hj, h j hj]
  · rw [if_neg hj, if_neg hj]
    congr 1
    apply List.map_congr_left
    intro q hq
    apply h
    by_cases hl : j - n < ents.length
    · rw [List.getD_eq_getElem?_getD, List.getElem?_eq_getElem hl, Option.getD_some] at hq
      exact he _ (List.getElem_mem hl) q hq
    · rw [List.getD_eq_getElem?_getD, List.getElem?_eq_none (by omega), Option.getD_none] at hq
      exact absurd hq List.not_mem_nil

theorem take_eq_of {r r' : List Nat} {n : Nat} (h : n ≤ r.length) (h' : n ≤ r'.length) (hc : ∀ j < n, r.getD j 0 = r'.getD j 0) :
    r.take n = r'.take n := by
  apply List.ext_getElem?
  intro j
  by_cases hj : j < n
  · have := hc j hj
    rw [List.getElem?_take_of_lt hj, List.getElem?_take_of_lt hj, List.getElem?_eq_getElem (by omega), List.getElem?_eq_getElem (by omega)]
    rw [List.getD_eq_getElem?_getD, List.getElem?_eq_getElem (show j < r.length by omega), List.getD_eq_getElem?_getD,
      List.getElem?_eq_getElem (show j < r'.length by omega)] at this
    exact congrArg some this
  · rw [List.getElem?_eq_none (by simp; omega), List.getElem?_eq_none (by simp; omega)]

/-- The rows of a mesh that is cut first and elevated afterwards. -/
theorem cut_elevated {coords c : List (V3 K)} {topo s t : Topo} {m w : Nat} {path : List (List Nat)} {tables : List (List (List Nat))}
    (hp : Parts path topo s) (hpl : ∀ p ∈ path, p.length = m) (hs : MeshOK coords s m)
    (ht : ∀ e ∈ tables.flatten, ∀ q ∈ e, q < m)
    (ok : Elevated coords s m tables c t) (hw : ∀ r ∈ t, r.length = w) {i k : Nat} {cell p : List Nat} (hi : topo[i]? = some cell)
    (hk : path[k]? = some p) :
    ∃ row, t[i * path.length + k]? = some row ∧ row.length = w ∧ (∀ q, q < m → row.getD q 0 = cell.getD (p.getD q 0) 0) ∧
      ∀ j, j < m + (tables.map List.length).sum →
        c[row.getD j 0]? = some (elevPlace m tables.flatten (fun q => firstCorners coords cell (p.getD q 0)) j) := by
  obtain ⟨row, h1, h2, h3, h4⟩ := elevated_row hs ok hw (parts_row hp hi hk)
  have hl := hpl p (List.mem_of_getElem? hk)
  have hq : ∀ q, q < m → (p.map fun q => cell.getD q 0).getD q 0 = cell.getD (p.getD q 0) 0 := by
    intro q hq
    simp [List.getD_eq_getElem?_getD, List.getElem?_eq_getElem (show q < p.length by omega)]
  refine ⟨row, h1, h2, fun q hqm => (h3 q hqm).trans (hq q hqm), fun j hj => (h4 j hj).trans ?_⟩
  congr 1
  exact elevPlace_congr (fun q hqm => by rw [firstCorners, hq q hqm, firstCorners]) ht j

/-- The rows of a mesh that is elevated first and cut afterwards. -/
theorem elevated_cut {coords c : List (V3 K)} {topo s t : Topo} {n w : Nat} {path : List (List Nat)} {tables : List (List (List Nat))}
    (h : MeshOK coords topo n) (ok : Elevated coords topo n tables c t) (hw : ∀ r ∈ t, r.length = w) (hp : Parts path t s) {i k : Nat}
    {cell p : List Nat} (hi : topo[i]? = some cell) (hk : path[k]? = some p) :
    ∃ row, s[i * path.length + k]? = some row ∧ row.length = p.length ∧
      (∀ j q, p[j]? = some q → q < n → row.getD j 0 = cell.getD q 0) ∧
      ∀ j q, p[j]? = some q → q < n + (tables.map List.length).sum →
        c[row.getD j 0]? = some (elevPlace n tables.flatten (firstCorners coords cell) q) := by
  obtain ⟨row, h1, h2, h3, h4⟩ := elevated_row h ok hw hi
  refine ⟨_, parts_row hp h1 hk, by simp, ?_, ?_⟩
  · intro j q hj hq
    rw [← h3 q hq, List.getD_eq_getElem?_getD, List.getElem?_map, hj]; rfl
  · intro j q hj hq
    rw [← h4 q hq, List.getD_eq_getElem?_getD (l := List.map _ _), List.getElem?_map, hj]; rfl

omit [Field K] in
theorem meshOK_parts {coords : List (V3 K)} {topo s : Topo} {n m : Nat} {path : List (List Nat)} (h : MeshOK coords topo n)
    (hp : Parts path topo s) (h0 : 0 < path.length) (hpl : ∀ p ∈ path, p.length = m) : MeshOK coords s m := by
  have key : ∀ r ∈ s, ∃ cell ∈ topo, ∃ p ∈ path, r.length = p.length ∧ ∀ x ∈ r, x ∈ cell := by
    intro r hr
    obtain ⟨l, hl, rfl⟩ := List.mem_iff_getElem.1 hr
    have hi : l / path.length < topo.length := Nat.div_lt_of_lt_mul (by rw [← hp.1]; exact hl)
    have hk : l % path.length < path.length := Nat.mod_lt _ h0
    obtain ⟨new, e, hlen, hj⟩ := hp.2 _ _ _ _ (List.getElem?_eq_getElem hi) (List.getElem?_eq_getElem hk)
    rw [Nat.div_add_mod', List.getElem?_eq_getElem hl, Option.some.injEq] at e
    refine ⟨_, List.getElem_mem hi, _, List.getElem_mem hk, by rw [e, hlen], ?_⟩
    intro x hx
    rw [e] at hx
    obtain ⟨j, hjl, rfl⟩ := List.mem_iff_getElem.1 hx
    have := hj j _ (List.getElem?_eq_getElem (show j < _ by rw [← hlen]; exact hjl))
    rw [List.getElem?_eq_getElem hjl, List.getElem?_eq_getElem this.1, Option.some.injEq] at this
    rw [this.2]
    exact List.getElem_mem _
  constructor
  · intro r hr
    obtain ⟨_, _, p, hp', e, _⟩ := key r hr
    rw [e, hpl p hp']
  · intro r hr x hx
    obtain ⟨cell, hc, _, _, _, hx'⟩ := key r hr
    exact h.lt cell hc x (hx' x hx)

omit [Field K] in
theorem samePlaces_iff {c c' : List (V3 K)} {t t' : Topo} {i w : Nat} {row row' : List Nat} (h : t[i]? = some row) (h' : t'[i]? = some row')
    (hl : row.length = w) (hl' : row'.length = w) :
    SamePlaces c t c' t' i ↔ ∀ j, j < w → c[row.getD j 0]? = c'[row'.getD j 0]? := by
  rw [SamePlaces, List.getD_eq_getElem?_getD, h, List.getD_eq_getElem?_getD, h', Option.getD_some, Option.getD_some]
  constructor
  · intro e j hj
    have := congrArg (fun l => l[j]?) e
    simp only [List.getElem?_map, List.getElem?_eq_getElem (show j < row.length by omega),
      List.getElem?_eq_getElem (show j < row'.length by omega), Option.map_some, Option.some.injEq] at this
    simpa [List.getD_eq_getElem?_getD, List.getElem?_eq_getElem (show j < row.length by omega),
      List.getElem?_eq_getElem (show j < row'.length by omega)] using this
  · intro e
    apply List.ext_getElem?
    intro j
    by_cases hj : j < w
    · have := e j hj
      simp only [List.getD_eq_getElem?_getD, List.getElem?_eq_getElem (show j < row.length by omega),
        List.getElem?_eq_getElem (show j < row'.length by omega), Option.getD_some] at this
      simp only [List.getElem?_map, List.getElem?_eq_getElem (show j < row.length by omega),
        List.getElem?_eq_getElem (show j < row'.length by omega), Option.map_some, this]
    · rw [List.getElem?_eq_none (by simp; omega), List.getElem?_eq_none (by simp; omega)]

theorem mean_diag [CharZero K] {a b c d : V3 K} : meanPts [a, b, c, d] = meanPts [a, c] ↔ a + c = b + d := by
  rw [meanPts_four, meanPts_two]
  simp only [V3.ext_iff, mid, mid4, add_x, add_y, add_z, smul_x, smul_y, smul_z]
  constructor
  · rintro ⟨h1, h2, h3⟩
    exact ⟨by linear_combination -4 * h1, by linear_combination -4 * h2, by linear_combination -4 * h3⟩
  · rintro ⟨h1, h2, h3⟩
    exact ⟨by linear_combination -(1 / 4) * h1, by linear_combination -(1 / 4) * h2, by linear_combination -(1 / 4) * h3⟩

theorem mean_diag' [CharZero K] {a b c d : V3 K} : meanPts [a, b, c, d] = meanPts [c, a] ↔ a + c = b + d := by
  rw [meanPts_perm (List.Perm.swap a c []), mean_diag]

theorem mean_diag2 [CharZero K] {a b c d : V3 K} : meanPts [a, b, c, d] = meanPts [b, d] ↔ a + c = b + d := by
  rw [meanPts_perm (l := [a, b, c, d]) (l' := [b, c, d, a]) (List.perm_append_comm (l₁ := [a]) (l₂ := [b, c, d])), mean_diag, eq_comm,
    show c + a = a + c by ext <;> simp [add_comm]]

theorem mean_diag2' [CharZero K] {a b c d : V3 K} : meanPts [a, b, c, d] = meanPts [d, b] ↔ a + c = b + d := by
  rw [meanPts_perm (List.Perm.swap b d []), mean_diag2]

theorem mean_swap {a b : V3 K} : meanPts [a, b] = meanPts [b, a] := meanPts_perm (List.Perm.swap b a [])

/-- The five tetrahedra of both routes, in terms of the corners of the hexahedron. -/
theorem hex_routes [CharZero K] (X : Nat → V3 K) :
    (∀ k < 5, ∀ j < 10, elevPlace 8 (edgeIdsH8 ++ faceIdsH8) X ((pathH27TET10.getD k []).getD j 0) =
      elevPlace 4 edgeIdsTET4 (fun q => X ((pathH8TET4.getD k []).getD q 0)) j) ↔
    X 0 + X 7 = X 4 + X 3 ∧ X 1 + X 6 = X 2 + X 5 ∧ X 0 + X 5 = X 1 + X 4 ∧ X 2 + X 7 = X 3 + X 6 ∧ X 0 + X 2 = X 3 + X 1 ∧
      X 4 + X 6 = X 5 + X 7 := by
  constructor
  · intro h
    refine ⟨?_, ?_, ?_, ?_, ?_, ?_⟩
    · exact mean_diag.1 (h 1 (by omega) 8 (by omega))
    · exact mean_diag2.1 (h 0 (by omega) 8 (by omega))
    · exact mean_diag.1 (h 0 (by omega) 9 (by omega))
    · exact mean_diag.1 (h 1 (by omega) 9 (by omega))
    · exact mean_diag'.1 (h 0 (by omega) 5 (by omega))
    · exact mean_diag2'.1 (h 2 (by omega) 6 (by omega))
  · rintro ⟨h1, h2, h3, h4, h5, h6⟩ k hk j hj
    interval_cases k <;> interval_cases j <;>
      first
      | rfl
      | exact mean_swap
      | exact mean_diag.2 ‹_›
      | exact mean_diag'.2 ‹_›
      | exact mean_diag2.2 ‹_›
      | exact mean_diag2'.2 ‹_›

/-- **C135** Hexahedra into quadratic tetrahedra, along both routes: the same number of tetrahedra with the same corners; the nodes between
them have the same places if and only if the faces are parallelograms. The points that the first route puts into the middle of the cells
belong to no tetrahedron. -/
theorem C135_hexahedra {β : Type} [CharZero K] (zb : β) (coords : List (V3 K)) (topo : Topo) (h : MeshOK coords topo 8) :
    ∃ c1 t1 s1 s2 c2 t2,
      h8ToH27 coords topo = some (c1, t1) ∧ h27ToTET10 zb c1 t1 27 none [] .missing = .ok (c1, s1, none) ∧
      h8ToTET4 zb coords topo 8 none [] .missing = .ok (coords, s2, none) ∧ tet4ToTet10 coords s2 = some (c2, t2) ∧
      s1.length = 5 * topo.length ∧ t2.length = 5 * topo.length ∧ (∀ i, (s1.getD i []).take 4 = (t2.getD i []).take 4) ∧
      (∀ i cell, topo[i]? = some cell → ((∀ k < 5, SamePlaces c1 s1 c2 t2 (5 * i + k)) ↔ BoxLike coords cell)) ∧
      ∀ i m, nodeAt t1 i 26 = some m → ∀ r ∈ s1, m ∉ r := by
  obtain ⟨c1, t1, e1, ok1, cen⟩ := C12_H8_to_H27 coords topo h
  obtain ⟨s1, e2, p1⟩ := C127_default .H27_TET10 zb c1 t1 ok1.width
  obtain ⟨s2, e3, p2⟩ := C127_default .H8_TET4 zb coords topo h.len
  have hs : MeshOK coords s2 4 := meshOK_parts h p2 (by decide) (by decide)
  obtain ⟨c2, t2, e4, ok2⟩ := C12_TET4_to_TET10 coords s2 hs
  have l1 : s1.length = 5 * topo.length := by rw [p1.1, ok1.elevated.cells]; rfl
  have l2 : t2.length = 5 * topo.length := by rw [ok2.elevated.cells, p2.1]; rfl
  have rows : ∀ i cell, topo[i]? = some cell → ∀ k < 5, ∃ r r', s1[i * 5 + k]? = some r ∧ t2[i * 5 + k]? = some r' ∧ r.length = 10 ∧
      r'.length = 10 ∧ (∀ j < 4, r.getD j 0 = r'.getD j 0) ∧ ∀ j < 10,
        c1[r.getD j 0]? = some (elevPlace 8 (edgeIdsH8 ++ faceIdsH8) (firstCorners coords cell) ((pathH27TET10.getD k []).getD j 0)) ∧
        c2[r'.getD j 0]? = some (elevPlace 4 edgeIdsTET4 (fun q => firstCorners coords cell ((pathH8TET4.getD k []).getD q 0)) j) := by
    intro i cell hi k hk
    have hk1 : pathH27TET10[k]? = some (pathH27TET10.getD k []) := by interval_cases k <;> rfl
    have hk2 : pathH8TET4[k]? = some (pathH8TET4.getD k []) := by interval_cases k <;> rfl
    obtain ⟨r, a1, a2, a3, a4⟩ := elevated_cut (n := 8) h ok1.elevated ok1.width p1 hi hk1
    obtain ⟨r', b1, b2, b3, b4⟩ := cut_elevated (m := 4) p2 (by decide) hs (by decide) ok2.elevated ok2.width hi hk2
    refine ⟨r, r', a1, b1, a2.trans (by interval_cases k <;> rfl), b2, ?_, ?_⟩
    · intro j hj
      rw [b3 j hj]
      refine a3 j _ ?_ ?_
      · interval_cases k <;> interval_cases j <;> rfl
      · interval_cases k <;> interval_cases j <;> decide
    · intro j hj
      refine ⟨?_, b4 j hj⟩
      refine a4 j _ ?_ ?_
      · interval_cases k <;> interval_cases j <;> rfl
      · interval_cases k <;> interval_cases j <;> decide
  refine ⟨c1, t1, s1, s2, c2, t2, e1, e2, e3, e4, l1, l2, ?_, ?_, ?_⟩
  · intro i
    by_cases hi : i < 5 * topo.length
    · have hd : i / 5 < topo.length := by omega
      obtain ⟨r, r', a1, b1, a2, b2, hc, _⟩ := rows _ _ (List.getElem?_eq_getElem hd) (i % 5) (Nat.mod_lt _ (by omega))
      rw [Nat.div_add_mod'] at a1 b1
      rw [List.getD_eq_getElem?_getD, a1, List.getD_eq_getElem?_getD, b1, Option.getD_some, Option.getD_some]
      exact take_eq_of (by omega) (by omega) hc
    · rw [List.getD_eq_default _ _ (by omega), List.getD_eq_default _ _ (by omega)]
  · intro i cell hi
    have := hex_routes (firstCorners coords cell)
    refine Iff.trans ?_ this
    refine forall_congr' fun k => forall_congr' fun hk => ?_
    obtain ⟨r, r', a1, b1, a2, b2, _, hp⟩ := rows i cell hi k hk
    rw [mul_comm, samePlaces_iff a1 b1 a2 b2]
    refine forall_congr' fun j => forall_congr' fun hj => ?_
    rw [(hp j hj).1, (hp j hj).2, Option.some.injEq]
  · intro i m hm r hr hmr
    have hil : i < topo.length := ok1.elevated.cells ▸ nodeAt_lt hm
    obtain ⟨m', _, g1, _, g2⟩ := cen i _ (List.getElem?_eq_getElem hil)
    obtain rfl : m = m' := Option.some.inj (hm.symm.trans g1)
    obtain ⟨l, hl, rfl⟩ := List.mem_iff_getElem.1 hr
    have hd : l / 5 < t1.length := by rw [ok1.elevated.cells]; omega
    have hk : l % 5 < 5 := Nat.mod_lt _ (by omega)
    obtain ⟨new, e, hlen, hj⟩ := p1.2 _ _ _ _ (List.getElem?_eq_getElem hd) (List.getElem?_eq_getElem (l := pathH27TET10) hk)
    rw [show l / 5 * (Conv.table .H27_TET10).length + l % 5 = l from Nat.div_add_mod' l 5, List.getElem?_eq_getElem hl, Option.some.injEq] at e
    rw [e] at hmr
    obtain ⟨j, hjl, rfl⟩ := List.mem_iff_getElem.1 hmr
    have hjl' : j < (pathH27TET10[l % 5]'hk).length := by rw [← hlen]; exact hjl
    have hq := hj j _ (List.getElem?_eq_getElem hjl')
    have h26 := (g2 (l / 5) ((pathH27TET10[l % 5]'hk)[j]) (by
      rw [nodeAt, List.getElem?_eq_getElem hd]
      exact hq.2.symm.trans (List.getElem?_eq_getElem hjl))).2
    have hno : ∀ p ∈ pathH27TET10, ∀ q ∈ p, q ≠ 26 := by decide
    exact hno _ (List.getElem_mem hk) _ (List.getElem_mem hjl') h26

/-! ## quadrilaterals -/

/-- Places of the nodes of an elevated cell, one of them in the middle. -/
theorem elevatedC_row {coords c : List (V3 K)} {topo t : Topo} {n : Nat} {tables : List (List (List Nat))} (h : MeshOK coords topo n)
    (ok : Elevated coords topo n tables c t) (hw : ∀ r ∈ t, r.length = n + (tables.map List.length).sum + 1)
    (cen : Centred coords topo (n + (tables.map List.length).sum) c t) {i : Nat} {cell : List Nat} (hi : topo[i]? = some cell) :
    ∃ row, t[i]? = some row ∧ row.length = n + (tables.map List.length).sum + 1 ∧ (∀ q, q < n → row.getD q 0 = cell.getD q 0) ∧
      ∀ j, j < n + (tables.map List.length).sum + 1 →
        c[row.getD j 0]? = some (elevPlace n (tables.flatten ++ [List.range n]) (firstCorners coords cell) j) := by
  obtain ⟨row, h1, h2, h3, h4⟩ := elevated_row h ok hw hi
  refine ⟨row, h1, h2, h3, fun j hj => ?_⟩
  have hfl : tables.flatten.length = (tables.map List.length).sum := List.length_flatten
  by_cases hjl : j < n + (tables.map List.length).sum
  · rw [h4 j hjl]
    unfold elevPlace
    by_cases hjn : j < n
    · rw [if_pos hjn, if_pos hjn]
    · rw [if_neg hjn, if_neg hjn, List.getD_append _ _ _ _ (by omega)]
  · obtain rfl : j = n + (tables.map List.length).sum := by omega
    obtain ⟨m, _, g1, g2, _⟩ := cen i cell hi
    have : row.getD (n + (tables.map List.length).sum) 0 = m := by
      rw [List.getD_eq_getElem?_getD]
      simp only [nodeAt, h1, Option.bind_eq_bind, Option.bind_some] at g1
      rw [g1]; rfl
    rw [this, g2, elevPlace, if_neg (by omega), List.getD_append_right _ _ _ _ (by omega)]
    rw [show n + (tables.map List.length).sum - n - tables.flatten.length = 0 by omega]
    congr 2
    have hcl : cell.length = n := h.len _ (List.mem_of_getElem? hi)
    simp only [ptsOf, List.getD_cons_zero]
    apply List.ext_getElem?
    intro q
    by_cases hq : q < n
    · simp [List.getElem?_eq_getElem (show q < cell.length by omega), hq, firstCorners]
    · rw [List.getElem?_eq_none (by simp; omega), List.getElem?_eq_none (by simp; omega)]

/-- `Q9_to_T6` for cells numbered by `Q4_to_Q9`. -/
def pathQ9T6Vtk : List (List Nat) := [[0, 1, 2, 4, 5, 8], [0, 2, 3, 8, 6, 7]]

theorem quad_routes [CharZero K] (X : Nat → V3 K) :
    (∀ k < 2, ∀ j < 6, elevPlace 4 (edgeIdsQ4 ++ [List.range 4]) X ((pathQ9T6Vtk.getD k []).getD j 0) =
      elevPlace 3 edgeIdsT3 (fun q => X ((pathQ4T3.getD k []).getD q 0)) j) ↔ X 0 + X 2 = X 1 + X 3 := by
  constructor
  · intro h
    exact mean_diag.1 (h 1 (by omega) 3 (by omega))
  · intro h1 k hk j hj
    interval_cases k <;> interval_cases j <;>
      first
      | rfl
      | exact mean_swap
      | exact mean_diag.2 ‹_›
      | exact mean_diag'.2 ‹_›

/-- **C135** Quadrilaterals into quadratic triangles, along both routes, with a path for `Q9_to_T6` that fits the cells of `Q4_to_Q9`. -/
theorem C135_quadrilaterals {β : Type} [CharZero K] (zb : β) (coords : List (V3 K)) (topo : Topo) (h : MeshOK coords topo 4) :
    ∃ c1 t1 s1 s2 c2 t2,
      q4ToQ9 coords topo = some (c1, t1) ∧ q9ToT6 c1 t1 (some [[0, 1, 2, 4, 5, 8], [0, 2, 3, 8, 6, 7]]) = some (c1, s1) ∧
      q4ToT3 zb coords topo 4 none [] .missing = .ok (coords, s2, none) ∧ t3ToT6 coords s2 = some (c2, t2) ∧
      s1.length = 2 * topo.length ∧ t2.length = 2 * topo.length ∧ (∀ i, (s1.getD i []).take 3 = (t2.getD i []).take 3) ∧
      ∀ i cell, topo[i]? = some cell → ((∀ k < 2, SamePlaces c1 s1 c2 t2 (2 * i + k)) ↔ Parallelogram coords cell 0 1 2 3) := by
  obtain ⟨c1, t1, e1, ok1, cen⟩ := C12_Q4_to_Q9 coords topo h
  have hw1 : ∀ r ∈ t1, r.length = 9 := ok1.width
  obtain ⟨s1, e2, p1, _⟩ := C127_Q9_T6 c1 t1 (some pathQ9T6Vtk) [0, 1, 2, 4, 5, 8] [0, 2, 3, 8, 6, 7] [] rfl ⟨rfl, rfl⟩ (by
    intro cell hc q hq
    rw [hw1 cell hc]
    revert q
    decide)
  obtain ⟨s2, e3, p2⟩ := C127_default .Q4_T3 zb coords topo h.len
  have hs : MeshOK coords s2 3 := meshOK_parts h p2 (by decide) (by decide)
  obtain ⟨c2, t2, e4, ok2⟩ := C12_T3_to_T6 coords s2 hs
  have l1 : s1.length = 2 * topo.length := by rw [p1.1, ok1.elevated.cells]; rfl
  have l2 : t2.length = 2 * topo.length := by rw [ok2.elevated.cells, p2.1]; rfl
  have rows : ∀ i cell, topo[i]? = some cell → ∀ k < 2, ∃ r r', s1[i * 2 + k]? = some r ∧ t2[i * 2 + k]? = some r' ∧ r.length = 6 ∧
      r'.length = 6 ∧ (∀ j < 3, r.getD j 0 = r'.getD j 0) ∧ ∀ j < 6,
        c1[r.getD j 0]? = some (elevPlace 4 (edgeIdsQ4 ++ [List.range 4]) (firstCorners coords cell) ((pathQ9T6Vtk.getD k []).getD j 0)) ∧
        c2[r'.getD j 0]? = some (elevPlace 3 edgeIdsT3 (fun q => firstCorners coords cell ((pathQ4T3.getD k []).getD q 0)) j) := by
    intro i cell hi k hk
    have hk1 : pathQ9T6Vtk[k]? = some (pathQ9T6Vtk.getD k []) := by interval_cases k <;> rfl
    have hk2 : pathQ4T3[k]? = some (pathQ4T3.getD k []) := by interval_cases k <;> rfl
    obtain ⟨row, g1, g2, g3, g4⟩ := elevatedC_row (n := 4) h ok1.elevated hw1 cen hi
    have a1 := parts_row p1 g1 hk1
    obtain ⟨r', b1, b2, b3, b4⟩ := cut_elevated (m := 3) p2 (by decide) hs (by decide) ok2.elevated ok2.width hi hk2
    refine ⟨_, r', a1, b1, by interval_cases k <;> rfl, b2, ?_, ?_⟩
    · intro j hj
      rw [b3 j hj]
      have : ∀ q < 4, row.getD q 0 = cell.getD q 0 := g3
      interval_cases k <;> interval_cases j <;> exact this _ (by decide)
    · intro j hj
      refine ⟨?_, b4 j hj⟩
      have := fun q hq => g4 q hq
      interval_cases k <;> interval_cases j <;> exact this _ (by decide)
  refine ⟨c1, t1, s1, s2, c2, t2, e1, e2, e3, e4, l1, l2, ?_, ?_⟩
  · intro i
    by_cases hi : i < 2 * topo.length
    · have hd : i / 2 < topo.length := by omega
      obtain ⟨r, r', a1, b1, a2, b2, hc, _⟩ := rows _ _ (List.getElem?_eq_getElem hd) (i % 2) (Nat.mod_lt _ (by omega))
      rw [Nat.div_add_mod'] at a1 b1
      rw [List.getD_eq_getElem?_getD, a1, List.getD_eq_getElem?_getD, b1, Option.getD_some, Option.getD_some]
      exact take_eq_of (by omega) (by omega) hc
    · rw [List.getD_eq_default _ _ (by omega), List.getD_eq_default _ _ (by omega)]
  · intro i cell hi
    refine Iff.trans ?_ (quad_routes (firstCorners coords cell))
    refine forall_congr' fun k => forall_congr' fun hk => ?_
    obtain ⟨r, r', a1, b1, a2, b2, _, hp⟩ := rows i cell hi k hk
    rw [mul_comm, samePlaces_iff a1 b1 a2 b2]
    refine forall_congr' fun j => forall_congr' fun hj => ?_
    rw [(hp j hj).1, (hp j hj).2, Option.some.injEq]

/-- **C135** is false with the table of `Q9_to_T6` itself: whatever the mesh, the second corner of the first triangle of a cell is the point
in the middle of the cell. -/
theorem C135_Q9_to_T6_false {β : Type} [CharZero K] (zb : β) (coords : List (V3 K)) (topo : Topo) (h : MeshOK coords topo 4) (h0 : topo ≠ []) :
    ∃ c1 t1 s1 s2,
      q4ToQ9 coords topo = some (c1, t1) ∧ q9ToT6 c1 t1 none = some (c1, s1) ∧
      q4ToT3 zb coords topo 4 none [] .missing = .ok (coords, s2, none) ∧ s1.map (List.take 3) ≠ s2 := by
  obtain ⟨c1, t1, e1, ok1, cen⟩ := C12_Q4_to_Q9 coords topo h
  have hw1 : ∀ r ∈ t1, r.length = 9 := ok1.width
  obtain ⟨s1, e2, p1, _⟩ := C127_Q9_T6 c1 t1 none [0, 8, 2, 4, 5, 1] [0, 6, 8, 3, 7, 4] [] rfl ⟨rfl, rfl⟩ (by
    intro cell hc q hq
    rw [hw1 cell hc]
    revert q
    decide)
  obtain ⟨s2, e3, p2⟩ := C127_default .Q4_T3 zb coords topo h.len
  refine ⟨c1, t1, s1, s2, e1, e2, e3, fun e => ?_⟩
  have hl : 0 < topo.length := List.length_pos_of_ne_nil h0
  obtain ⟨m, hm, g1, _, _⟩ := cen 0 _ (List.getElem?_eq_getElem hl)
  have ht : 0 < t1.length := by rw [ok1.elevated.cells]; exact hl
  have a1 := parts_row (i := 0) (k := 0) p1 (List.getElem?_eq_getElem ht) rfl
  have b1 := parts_row (i := 0) (k := 0) p2 (List.getElem?_eq_getElem hl) rfl
  have := congrArg (fun l => (l.getD 0 []).getD 1 0) e
  simp only [List.getD_eq_getElem?_getD, List.getElem?_map] at this
  simp only [Nat.zero_mul, Nat.zero_add] at a1 b1
  rw [a1, b1] at this
  simp only [nodeAt, List.getElem?_eq_getElem ht, Option.bind_eq_bind, Option.bind_some] at g1
  have h1 : topo[0].getD 1 0 < coords.length := h.lt _ (List.getElem_mem hl) _ (by
    have := h.len _ (List.getElem_mem hl)
    rw [List.getD_eq_getElem?_getD, List.getElem?_eq_getElem (by omega), Option.getD_some]
    exact List.getElem_mem _)
  have : m = topo[0].getD 1 0 := by
    simpa [List.getD_eq_getElem?_getD, g1] using this
  omega

/-! ## cutting and refining -/

/-- Places of the nodes of a cell. -/
def placesOf (c : List (V3 K)) (t : Topo) (i : Nat) : List (Option (V3 K)) := (t.getD i []).map fun n => c[n]?

/-- **C135** Quadrilaterals that are quartered and cut against quadrilaterals that are cut and the triangles quartered: if a cell is a
parallelogram, its eight triangles are the same, apart from their order and the corner they begin with. -/
theorem C135_refine {β : Type} [CharZero K] (zb : β) (coords : List (V3 K)) (topo : Topo) (h : MeshOK coords topo 4) :
    ∃ c1 t1 u1 s1 u2 c2 t2 s2,
      q4ToQ9 coords topo = some (c1, t1) ∧ q9ToQ4 zb c1 t1 9 none [] .missing = .ok (c1, u1, none) ∧
        q4ToT3 zb c1 u1 4 none [] .missing = .ok (c1, s1, none) ∧
      q4ToT3 zb coords topo 4 none [] .missing = .ok (coords, u2, none) ∧ t3ToT6 coords u2 = some (c2, t2) ∧
        t6ToT3 zb c2 t2 6 none [] .missing true = .ok (c2, s2, none) ∧
      s1.length = 8 * topo.length ∧ s2.length = 8 * topo.length ∧
      ∀ i cell, topo[i]? = some cell → Parallelogram coords cell 0 1 2 3 →
        ∃ l, l.Perm ((List.range 8).map fun k => placesOf c2 s2 (8 * i + k)) ∧
          List.Forall₂ List.IsRotated ((List.range 8).map fun k => placesOf c1 s1 (8 * i + k)) l := by
  obtain ⟨c1, t1, e1, ok1, cen⟩ := C12_Q4_to_Q9 coords topo h
  have hw1 : ∀ r ∈ t1, r.length = 9 := ok1.width
  obtain ⟨u1, e2, p1⟩ := C127_default .Q9_Q4 zb c1 t1 hw1
  have hu1 : ∀ r ∈ u1, r.length = 4 := by
    have hm : MeshOK c1 t1 9 := ⟨hw1, fun r hr x hx => by
      obtain ⟨I, hI, rfl⟩ := List.mem_iff_getElem.1 hr
      obtain ⟨j, hj, rfl⟩ := List.mem_iff_getElem.1 hx
      exact ok1.inRange I j _ (by simp [nodeAt, List.getElem?_eq_getElem hI, List.getElem?_eq_getElem hj])⟩
    exact (meshOK_parts hm p1 (by decide) (m := 4) (by decide)).len
  obtain ⟨s1, e3, p2⟩ := C127_default .Q4_T3 zb c1 u1 hu1
  obtain ⟨u2, e4, p3⟩ := C127_default .Q4_T3 zb coords topo h.len
  have hs : MeshOK coords u2 3 := meshOK_parts h p3 (by decide) (by decide)
  obtain ⟨c2, t2, e5, ok2⟩ := C12_T3_to_T6 coords u2 hs
  have hw2 : ∀ r ∈ t2, r.length = 6 := ok2.width
  obtain ⟨s2, e6, p4⟩ := C127_default .T6_T3 zb c2 t2 hw2
  refine ⟨c1, t1, u1, s1, u2, c2, t2, s2, e1, e2, e3, e4, e5, e6, ?_, ?_, ?_⟩
  · rw [p2.1, p1.1, ok1.elevated.cells]
    show 2 * (4 * topo.length) = 8 * topo.length
    omega
  · rw [p4.1, ok2.elevated.cells, p3.1]
    show 4 * (2 * topo.length) = 8 * topo.length
    omega
  · intro i cell hi hpar
    obtain ⟨row, g1, g2, g3, g4⟩ := elevatedC_row (n := 4) h ok1.elevated hw1 cen hi
    have A : ∀ k < 4, ∀ l < 2, placesOf c1 s1 (8 * i + (2 * k + l)) = ((pathQ4T3.getD l []).map fun q =>
        some (elevPlace 4 (edgeIdsQ4 ++ [List.range 4]) (firstCorners coords cell) ((pathQ9Q4.getD k []).getD q 0))) := by
      intro k hk l hl
      have hk1 : pathQ9Q4[k]? = some (pathQ9Q4.getD k []) := by interval_cases k <;> rfl
      have hl1 : pathQ4T3[l]? = some (pathQ4T3.getD l []) := by interval_cases l <;> rfl
      have := parts_row p2 (parts_row p1 g1 hk1) hl1
      rw [show (i * (Conv.table .Q9_Q4).length + k) * (Conv.table .Q4_T3).length + l = 8 * i + (2 * k + l) by
        show (i * 4 + k) * 2 + l = _
        omega] at this
      rw [placesOf, List.getD_eq_getElem?_getD, this, Option.getD_some, List.map_map]
      have g := fun q hq => g4 q hq
      interval_cases k <;> interval_cases l <;>
        exact congrArg₂ List.cons (g _ (by decide)) (congrArg₂ List.cons (g _ (by decide)) (congrArg₂ List.cons (g _ (by decide)) rfl))
    have B : ∀ k < 2, ∀ l < 4, placesOf c2 s2 (8 * i + (4 * k + l)) = ((pathT6T3.getD l []).map fun q =>
        some (elevPlace 3 edgeIdsT3 (fun q => firstCorners coords cell ((pathQ4T3.getD k []).getD q 0)) q)) := by
      intro k hk l hl
      have hk2 : pathQ4T3[k]? = some (pathQ4T3.getD k []) := by interval_cases k <;> rfl
      have hl2 : pathT6T3[l]? = some (pathT6T3.getD l []) := by interval_cases l <;> rfl
      obtain ⟨r', b1, b2, b3, b4⟩ := cut_elevated (m := 3) p3 (by decide) hs (by decide) ok2.elevated hw2 hi hk2
      have := parts_row p4 b1 hl2
      rw [show (i * (Conv.table .Q4_T3).length + k) * (Conv.table .T6_T3).length + l = 8 * i + (4 * k + l) by
        show (i * 2 + k) * 4 + l = _
        omega] at this
      rw [placesOf, List.getD_eq_getElem?_getD, this, Option.getD_some, List.map_map]
      have g := fun q hq => b4 q hq
      interval_cases k <;> interval_cases l <;>
        exact congrArg₂ List.cons (g _ (by decide)) (congrArg₂ List.cons (g _ (by decide)) (congrArg₂ List.cons (g _ (by decide)) rfl))
    have hA : ((List.range 8).map fun k => placesOf c1 s1 (8 * i + k)) = [placesOf c1 s1 (8 * i + (2 * 0 + 0)), placesOf c1 s1 (8 * i + (2 * 0 + 1)),
      placesOf c1 s1 (8 * i + (2 * 1 + 0)), placesOf c1 s1 (8 * i + (2 * 1 + 1)), placesOf c1 s1 (8 * i + (2 * 2 + 0)),
      placesOf c1 s1 (8 * i + (2 * 2 + 1)), placesOf c1 s1 (8 * i + (2 * 3 + 0)), placesOf c1 s1 (8 * i + (2 * 3 + 1))] := rfl
    have hB : ([0, 4, 1, 3, 2, 5, 7, 6].map fun k => placesOf c2 s2 (8 * i + k)) = [placesOf c2 s2 (8 * i + (4 * 0 + 0)),
      placesOf c2 s2 (8 * i + (4 * 1 + 0)), placesOf c2 s2 (8 * i + (4 * 0 + 1)), placesOf c2 s2 (8 * i + (4 * 0 + 3)),
      placesOf c2 s2 (8 * i + (4 * 0 + 2)), placesOf c2 s2 (8 * i + (4 * 1 + 1)), placesOf c2 s2 (8 * i + (4 * 1 + 3)),
      placesOf c2 s2 (8 * i + (4 * 1 + 2))] := rfl
    have q := (quad_routes (firstCorners coords cell)).2 hpar
    have q0 := fun j hj => q 0 (by omega) j hj
    have q1 := fun j hj => q 1 (by omega) j hj
    refine ⟨_, (by decide : [0, 4, 1, 3, 2, 5, 7, 6].Perm (List.range 8)).map _, ?_⟩
    rw [hA, hB]
    simp only [A _ (by omega : 0 < 4) _ (by omega : 0 < 2), A _ (by omega : 0 < 4) _ (by omega : 1 < 2),
      A _ (by omega : 1 < 4) _ (by omega : 0 < 2), A _ (by omega : 1 < 4) _ (by omega : 1 < 2),
      A _ (by omega : 2 < 4) _ (by omega : 0 < 2), A _ (by omega : 2 < 4) _ (by omega : 1 < 2),
      A _ (by omega : 3 < 4) _ (by omega : 0 < 2), A _ (by omega : 3 < 4) _ (by omega : 1 < 2),
      B _ (by omega : 0 < 2) _ (by omega : 0 < 4), B _ (by omega : 0 < 2) _ (by omega : 1 < 4),
      B _ (by omega : 0 < 2) _ (by omega : 2 < 4), B _ (by omega : 0 < 2) _ (by omega : 3 < 4),
      B _ (by omega : 1 < 2) _ (by omega : 0 < 4), B _ (by omega : 1 < 2) _ (by omega : 1 < 4),
      B _ (by omega : 1 < 2) _ (by omega : 2 < 4), B _ (by omega : 1 < 2) _ (by omega : 3 < 4)]
    have three : ∀ {x y z x' y' z' : V3 K}, x = x' → y = y' → z = z' → [some x, some y, some z].IsRotated [some x', some y', some z'] := by
      rintro x y z _ _ _ rfl rfl rfl
      exact List.IsRotated.refl _
    have turn : ∀ {x y z x' y' z' : V3 K}, x = y' → y = z' → z = x' → [some x, some y, some z].IsRotated [some x', some y', some z'] := by
      rintro x y z _ _ _ rfl rfl rfl
      exact ⟨2, rfl⟩
    refine .cons ?_ (.cons ?_ (.cons ?_ (.cons ?_ (.cons ?_ (.cons ?_ (.cons ?_ (.cons ?_ .nil)))))))
    · exact three (q0 0 (by omega)) (q0 3 (by omega)) (q0 5 (by omega))
    · exact three (q1 0 (by omega)) (q1 3 (by omega)) (q1 5 (by omega))
    · exact three (q0 3 (by omega)) (q0 1 (by omega)) (q0 4 (by omega))
    · exact turn (q0 3 (by omega)) (q0 4 (by omega)) (q0 5 (by omega))
    · exact three (q0 5 (by omega)) (q0 4 (by omega)) (q0 2 (by omega))
    · exact three (q1 3 (by omega)) (q1 1 (by omega)) (q1 4 (by omega))
    · exact three (q1 5 (by omega)) (q1 3 (by omega)) (q1 4 (by omega))
    · exact three (q1 5 (by omega)) (q1 4 (by omega)) (q1 2 (by omega))

/-! ## grids -/

theorem vtkGrid3_cells {lc : List (V3 Int)} {ax ay az : Axis K} {C : List (List K)} {T : List (List Int)} (h : VtkGrid3 lc ax ay az 0 C T)
    {I : Nat} {cell : List Nat} (hI : (asTopo T)[I]? = some cell) :
    cell.length = lc.length ∧ ∃ A : Aff K, ∀ q, q < lc.length → (C.map rowPt)[cell.getD q 0]? = some (A.app (half (lc.getD q 0))) := by
  have hIl : I < T.length := by
    have := (List.getElem?_eq_some_iff.1 hI).1
    rwa [asTopo, List.length_map] at this
  have hl := h.1 ▸ hIl
  have hz : 0 < az.n := Nat.pos_of_ne_zero fun e => by simp [e] at hl
  have hy : 0 < ay.n := Nat.pos_of_ne_zero fun e => by simp [e] at hl
  have i1 : I / az.n / ay.n < ax.n := by
    apply Nat.div_lt_of_lt_mul
    apply Nat.div_lt_of_lt_mul
    calc I < ax.n * ay.n * az.n := hl
      _ = az.n * (ay.n * ax.n) := by ring
  have hsplit : (I / az.n / ay.n * ay.n + I / az.n % ay.n) * az.n + I % az.n = I := by
    rw [Nat.div_add_mod', Nat.div_add_mod']
  rw [asTopo, List.getElem?_map, List.getElem?_eq_getElem hIl, Option.map_some, Option.some.injEq] at hI
  have hr := h.2.1 _ (List.getElem_mem hIl)
  refine ⟨by rw [← hI, List.length_map, hr], boxAff (ax.b (I / az.n / ay.n)) (ax.b (I / az.n / ay.n + 1)) (ay.b (I / az.n % ay.n))
    (ay.b (I / az.n % ay.n + 1)) (az.b (I % az.n)) (az.b (I % az.n + 1)), fun q hq => ?_⟩
  obtain ⟨node, g1, P, rfl, g2⟩ := h.2.2 _ _ _ q i1 (Nat.mod_lt _ hy) (Nat.mod_lt I hz) hq
  rw [hsplit, nodeAt, List.getElem?_eq_getElem hIl] at g1
  simp only [Option.bind_eq_bind, Option.bind_some, add_zero] at g1
  have : cell.getD q 0 = node := by
    rw [← hI, List.getD_eq_getElem?_getD, List.getElem?_map, g1]
    rfl
  rw [this, List.getElem?_map, g2]
  rfl

theorem boxLike_of {coords : List (V3 K)} {cell : List Nat} (A : Aff K)
    (h : ∀ q, q < 8 → coords[cell.getD q 0]? = some (A.app (half (lcH8.getD q 0)))) : BoxLike coords cell := by
  have h' : ∀ q, q < 8 → coords.getD (cell.getD q 0) 0 = A.app (half (lcH8.getD q 0)) := fun q hq => by
    rw [List.getD_eq_getElem?_getD, h q hq]; rfl
  unfold BoxLike Parallelogram
  simp only [h' 0 (by omega), h' 1 (by omega), h' 2 (by omega), h' 3 (by omega), h' 4 (by omega), h' 5 (by omega), h' 6 (by omega),
    h' 7 (by omega)]
  refine ⟨?_, ?_, ?_, ?_, ?_, ?_⟩ <;> ext <;> simp [lcH8, half, Aff.app] <;> ring

theorem meshOK_affine {coords : List (V3 K)} {topo : Topo} {lc : List (V3 Int)}
    (h : ∀ (I : Nat) (cell : List Nat), topo[I]? = some cell → cell.length = lc.length ∧
      ∃ A : Aff K, ∀ q, q < lc.length → coords[cell.getD q 0]? = some (A.app (half (lc.getD q 0)))) : MeshOK coords topo lc.length := by
  constructor
  · intro r hr
    obtain ⟨I, hI, rfl⟩ := List.mem_iff_getElem.1 hr
    exact (h I _ (List.getElem?_eq_getElem hI)).1
  · intro r hr x hx
    obtain ⟨I, hI, rfl⟩ := List.mem_iff_getElem.1 hr
    obtain ⟨hl, A, hA⟩ := h I _ (List.getElem?_eq_getElem hI)
    obtain ⟨q, hq, rfl⟩ := List.mem_iff_getElem.1 hx
    have := hA q (by omega)
    rw [List.getD_eq_getElem?_getD, List.getElem?_eq_getElem hq] at this
    exact (List.getElem?_eq_some_iff.1 this).1

/-- **C135** Both routes lead from a mesh of affine images of the master cell to the same tetrahedra, node by node. -/
theorem C135_affine {β : Type} [CharZero K] (zb : β) (coords : List (V3 K)) (topo : Topo)
    (h : ∀ (I : Nat) (cell : List Nat), topo[I]? = some cell → cell.length = 8 ∧
      ∃ A : Aff K, ∀ q, q < 8 → coords[cell.getD q 0]? = some (A.app (half (lcH8.getD q 0)))) :
    ∃ c1 t1 s1 s2 c2 t2,
      h8ToH27 coords topo = some (c1, t1) ∧ h27ToTET10 zb c1 t1 27 none [] .missing = .ok (c1, s1, none) ∧
      h8ToTET4 zb coords topo 8 none [] .missing = .ok (coords, s2, none) ∧ tet4ToTet10 coords s2 = some (c2, t2) ∧
      s1.length = 5 * topo.length ∧ t2.length = 5 * topo.length ∧ ∀ i, SamePlaces c1 s1 c2 t2 i := by
  obtain ⟨c1, t1, s1, s2, c2, t2, e1, e2, e3, e4, l1, l2, _, hs, _⟩ := C135_hexahedra zb coords topo (meshOK_affine (lc := lcH8) h)
  refine ⟨c1, t1, s1, s2, c2, t2, e1, e2, e3, e4, l1, l2, fun i => ?_⟩
  by_cases hi : i < 5 * topo.length
  · have hd : i / 5 < topo.length := by omega
    obtain ⟨_, A, hA⟩ := h _ _ (List.getElem?_eq_getElem hd)
    have := (hs _ _ (List.getElem?_eq_getElem hd)).2 (boxLike_of A hA) (i % 5) (Nat.mod_lt _ (by omega))
    rwa [Nat.div_add_mod] at this
  · rw [SamePlaces, List.getD_eq_default _ _ (by omega), List.getD_eq_default _ _ (by omega)]; rfl

/-- **C135** for `gridH8`. -/
theorem C135_gridH8 {β : Type} [CharZero K] (zb : β) (lX lY lZ : K) {nx ny nz : Nat} (s0 s1 s2 : K) (h : 1 ≤ nx ∧ 1 ≤ ny ∧ 1 ≤ nz) :
    ∃ C T c1 t1 S1 S2 c2 t2, gridH8 (args3 lX lY lZ nx ny nz s0 s1 s2 0) = some (C, T) ∧
      h8ToH27 (C.map rowPt) (asTopo T) = some (c1, t1) ∧ h27ToTET10 zb c1 t1 27 none [] .missing = .ok (c1, S1, none) ∧
      h8ToTET4 zb (C.map rowPt) (asTopo T) 8 none [] .missing = .ok (C.map rowPt, S2, none) ∧
      tet4ToTet10 (C.map rowPt) S2 = some (c2, t2) ∧ S1.length = 5 * (nx * ny * nz) ∧ t2.length = 5 * (nx * ny * nz) ∧
      ∀ i, SamePlaces c1 S1 c2 t2 i := by
  obtain ⟨C, T, e, hV⟩ := C19_gridH8 lX lY lZ nx ny nz s0 s1 s2 0 h
  obtain ⟨c1, t1, S1, S2, c2, t2, e1, e2, e3, e4, l1, l2, hs⟩ := C135_affine zb (C.map rowPt) (asTopo T) fun I cell hI => vtkGrid3_cells hV hI
  have hl : (asTopo T).length = nx * ny * nz := by rw [asTopo, List.length_map, hV.1]; rfl
  exact ⟨C, T, c1, t1, S1, S2, c2, t2, e, e1, e2, e3, e4, by rw [l1, hl], by rw [l2, hl], hs⟩

end

/-- A cube and a hexahedron with a face that is no parallelogram: meshes of the kind the theorems are about. -/
example : MeshOK (K := ℚ) [⟨0, 0, 0⟩, ⟨1, 0, 0⟩, ⟨1, 1, 0⟩, ⟨0, 1, 0⟩, ⟨0, 0, 1⟩, ⟨1, 0, 1⟩, ⟨1, 1, 1⟩, ⟨0, 1, 1⟩] [[0, 1, 2, 3, 4, 5, 6, 7]] 8 :=
  ⟨by decide, by decide⟩

example : BoxLike (K := ℚ) [⟨0, 0, 0⟩, ⟨1, 0, 0⟩, ⟨1, 1, 0⟩, ⟨0, 1, 0⟩, ⟨0, 0, 1⟩, ⟨1, 0, 1⟩, ⟨1, 1, 1⟩, ⟨0, 1, 1⟩] [0, 1, 2, 3, 4, 5, 6, 7] := by
  unfold BoxLike Parallelogram
  decide +kernel

example : ¬ BoxLike (K := ℚ) [⟨0, 0, 0⟩, ⟨1, 0, 0⟩, ⟨1, 1, 0⟩, ⟨0, 1, 0⟩, ⟨0, 0, 1⟩, ⟨1, 0, 1⟩, ⟨2, 2, 1⟩, ⟨0, 1, 1⟩] [0, 1, 2, 3, 4, 5, 6, 7] := by
  unfold BoxLike Parallelogram
  decide +kernel

end PM
