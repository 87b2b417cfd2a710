import Verif.Elevate
import Verif.PropsCells
import Verif.PropsTransform
import Verif.PropsVolumes

/-!
# Property C12 (order elevation)
-/

namespace PM
open V3

section
variable {K : Type} [Field K]

theorem ptsOf_some {coords : List (V3 K)} {row : List Nat} (h : ∀ x ∈ row, x < coords.length) :
    (row.mapM fun n => coords[n]?) = some (ptsOf coords row) := by
  apply mapM_some
  intro x hx
  simp [List.getElem?_eq_getElem (h x hx)]

theorem meanRows_some {coords : List (V3 K)} {rows : List (List Nat)} (h : ∀ r ∈ rows, ∀ x ∈ r, x < coords.length) :
    meanRows coords rows = some (rows.map fun r => meanPts (ptsOf coords r)) := by
  unfold meanRows
  apply mapM_some
  intro r hr
  rw [ptsOf_some (h r hr)]; rfl

theorem elevStep_ok {coords : List (V3 K)} {topo : Topo} {n : Nat} (h : MeshOK coords topo n)
    {table : List (List Nat)} (ht : ∀ t ∈ table, ∀ q ∈ t, q < n) (nP : Nat) :
    ∃ c t, elevStep coords topo table nP = some (c, t) ∧ ElevOK coords topo [table] nP c t := by
  have hent : topo.mapM (cellEntities table) =
      some (topo.map fun cell => table.map (List.map fun q => cell.getD q 0)) := by
    apply mapM_some
    intro cell hc
    apply cellEntities_eq
    intro t htt q hq
    rw [h.len cell hc]; exact ht t htt q hq
  set ent := topo.map fun cell => table.map (List.map fun q => cell.getD q 0) with hentdef
  obtain ⟨hu, hlen, hpt, hused, hsame⟩ := C08_unique_topo_data ent
  have hnode : ∀ (e i : Nat) (cell : List Nat), e < table.length → topo[i]? = some cell →
      nodeAt ent i e = some (entNodes table cell e) := by
    intro e i cell he hi
    simp [nodeAt, hentdef, hi, entNodes, List.getElem?_eq_getElem he]
  have hnode' : ∀ (i e : Nat) (row : List Nat), nodeAt ent i e = some row →
      ∃ cell, topo[i]? = some cell ∧ e < table.length ∧ row = entNodes table cell e := by
    intro i e row hr
    simp only [nodeAt, hentdef, List.getElem?_map] at hr
    cases hi : topo[i]? with
    | none => simp [hi] at hr
    | some cell =>
      simp only [hi, Option.map_some, Option.bind_eq_bind, Option.bind_some, List.getElem?_map] at hr
      cases he : table[e]? with
      | none => simp [he] at hr
      | some t =>
        simp only [he, Option.map_some, Option.some.injEq] at hr
        have := List.getElem?_eq_some_iff.1 he
        refine ⟨cell, rfl, this.1, ?_⟩
        simp [entNodes, he, ← hr]
  have hrow : ∀ (e : Nat) (cell : List Nat), cell ∈ topo → e < table.length →
      ∀ x ∈ entNodes table cell e, x < coords.length := by
    intro e cell hc he x hx
    simp only [entNodes, getD_of_lt he, List.mem_map] at hx
    obtain ⟨q, hq, rfl⟩ := hx
    have hqn := ht _ (List.getElem_mem he) q hq
    rw [← h.len cell hc] at hqn
    rw [getD_of_lt hqn]
    exact h.lt cell hc _ (List.getElem_mem hqn)
  have hlenids : (uniqueTopoData ent).2.length = topo.length := by
    rw [length_eq_of_map_length hlen, hentdef, List.length_map]
  have hurows : ∀ r ∈ (uniqueTopoData ent).1, ∀ x ∈ r, x < coords.length := by
    intro r hr x hx
    obtain ⟨k, hk, rfl⟩ := List.mem_iff_getElem.1 hr
    obtain ⟨i, e, hie⟩ := hused k hk
    have hi : i < ent.length := by
      by_contra hno
      have : (uniqueTopoData ent).2[i]? = none := by
        rw [List.getElem?_eq_none]; rw [length_eq_of_map_length hlen]; omega
      simp [nodeAt, this] at hie
    have hrl : ((uniqueTopoData ent).2[i]?).map List.length = (ent[i]?).map List.length := by
      rw [← List.getElem?_map, ← List.getElem?_map, hlen]
    cases hnn : nodeAt ent i e with
    | none =>
      exfalso
      have hi2 : i < (uniqueTopoData ent).2.length := by rw [length_eq_of_map_length hlen]; exact hi
      rw [List.getElem?_eq_getElem hi, List.getElem?_eq_getElem hi2] at hrl
      simp only [Option.map_some, Option.some.injEq] at hrl
      simp only [nodeAt, List.getElem?_eq_getElem hi, Option.bind_eq_bind, Option.bind_some,
        List.getElem?_eq_none_iff] at hnn
      simp only [nodeAt, List.getElem?_eq_getElem hi2, Option.bind_eq_bind, Option.bind_some] at hie
      have := (List.getElem?_eq_some_iff.1 hie).1
      omega
    | some row =>
      obtain ⟨k', r', h1, h2, h3, _⟩ := hpt i e row hnn
      rw [hie] at h1
      obtain rfl := Option.some.inj h1
      rw [List.getElem?_eq_getElem hk] at h2
      obtain rfl := Option.some.inj h2
      obtain ⟨cell, hc, he, rfl⟩ := hnode' i e row hnn
      exact hrow e cell (List.mem_of_getElem? hc) he x (h3.mem_iff.1 hx)
  refine ⟨_, _, by
    unfold elevStep
    simp only [hent, Option.bind_eq_bind, Option.bind_some, meanRows_some hurows]
    rfl, ?_⟩
  refine ⟨by simp [hlenids], ?_, ?_, ?_, ?_⟩
  · intro r hr
    obtain ⟨r', hr', rfl⟩ := List.mem_map.1 hr
    have : r'.length ∈ (uniqueTopoData ent).2.map List.length := List.mem_map.2 ⟨r', hr', rfl⟩
    rw [hlen, hentdef, List.map_map] at this
    obtain ⟨_, _, h2⟩ := List.mem_map.1 this
    simp at h2 ⊢
    omega
  · intro k e i tab cell hk he hi
    have hk0 : k = 0 ∧ tab = table := by
      cases k with
      | zero => simp at hk; exact ⟨rfl, hk.symm⟩
      | succ k => simp at hk
    obtain ⟨rfl, rfl⟩ := hk0
    obtain ⟨k, r, h1, h2, h3, _⟩ := hpt i e _ (hnode e i cell he hi)
    refine ⟨k, ?_, ?_⟩
    · simp only [List.take_zero, List.map_nil, List.sum_nil, Nat.zero_add]
      rw [nodeAt_map', h1, Option.map_some, Nat.add_comm]
    · rw [List.getElem?_map, h2, Option.map_some]
      congr 1
      exact meanPts_perm (h3.map _)
  · intro k e i k' e' i' tab tab' cell cell' hk he hi hk' he' hi'
    have hk0 : ∀ (k : Nat) tab, [table][k]? = some tab → k = 0 ∧ tab = table := by
      intro k tab hk
      cases k with
      | zero => simp at hk; exact ⟨rfl, hk.symm⟩
      | succ k => simp at hk
    obtain ⟨rfl, rfl⟩ := hk0 k tab hk
    obtain ⟨rfl, rfl⟩ := hk0 k' tab' hk'
    simp only [List.take_zero, List.map_nil, List.sum_nil, Nat.zero_add, true_and]
    rw [nodeAt_map', nodeAt_map', ← hsame i e i' e' _ _ (hnode e i cell he hi) (hnode e' i' cell' he' hi')]
    constructor
    · intro heq
      exact Option.map_injective (fun a b hab => by simpa using hab) heq
    · intro heq; rw [heq]
  · intro m hm
    rw [List.length_map] at hm
    obtain ⟨i, e, hie⟩ := hused m hm
    exact ⟨i, e, by rw [nodeAt_map', hie, Option.map_some, Nat.add_comm]⟩

theorem nodeAt_zipWith {α : Type} {t1 t2 : List (List α)} {n : Nat} (h1 : ∀ r ∈ t1, r.length = n)
    (hl : t1.length = t2.length) (i j : Nat) :
    nodeAt (List.zipWith (· ++ ·) t1 t2) i j = if j < n then nodeAt t1 i j else nodeAt t2 i (j - n) := by
  unfold nodeAt
  rw [List.getElem?_zipWith]
  by_cases hi : i < t1.length
  · have hi2 : i < t2.length := by omega
    have hr := h1 _ (List.getElem_mem hi)
    rw [List.getElem?_eq_getElem hi, List.getElem?_eq_getElem hi2]
    simp only [Option.bind_eq_bind, Option.bind_some]
    split
    · rw [List.getElem?_append_left (by omega)]
    · rw [List.getElem?_append_right (by omega), hr]
  · rw [List.getElem?_eq_none (by omega), List.getElem?_eq_none (by omega)]
    simp

theorem elev_combine {coords : List (V3 K)} {topo : Topo} {tab : List (List Nat)} {rest : List (List (List Nat))}
    {nP : Nat} {c1 c2 : List (V3 K)} {t1 t2 : Topo} (h1 : ElevOK coords topo [tab] nP c1 t1)
    (h2 : ElevOK coords topo rest (nP + c1.length) c2 t2) :
    ElevOK coords topo (tab :: rest) nP (c1 ++ c2) (List.zipWith (· ++ ·) t1 t2) := by
  have hc1 : ∀ r ∈ t1, r.length = tab.length := by simpa using h1.cols
  have hl : t1.length = t2.length := by rw [h1.rows, h2.rows]
  have hnz := nodeAt_zipWith hc1 hl
  have hfirst : ∀ (e i : Nat) (cell : List Nat), e < tab.length → topo[i]? = some cell → ∃ m, m < c1.length ∧
      nodeAt t1 i e = some (nP + m) ∧ c1[m]? = some (meanPts (ptsOf coords (entNodes tab cell e))) := by
    intro e i cell he hi
    obtain ⟨m, hm1, hm2⟩ := h1.place 0 e i tab cell rfl he hi
    exact ⟨m, (List.getElem?_eq_some_iff.1 hm2).1, by simpa using hm1, hm2⟩
  have hoff : ∀ (k e : Nat), (((tab :: rest).take (k + 1)).map List.length).sum + e =
      tab.length + (((rest.take k).map List.length).sum + e) := by
    intro k e; simp; omega
  refine ⟨?_, ?_, ?_, ?_, ?_⟩
  · rw [List.length_zipWith, hl, Nat.min_self, h2.rows]
  · intro r hr
    obtain ⟨i, hi, rfl⟩ := List.mem_iff_getElem.1 hr
    rw [List.getElem_zipWith, List.length_append, hc1 _ (List.getElem_mem _), h2.cols _ (List.getElem_mem _)]
    simp
  · intro k e i tab' cell hk he hi
    cases k with
    | zero =>
      obtain rfl : tab = tab' := by simpa using hk
      obtain ⟨m, hm, hm1, hm2⟩ := hfirst e i cell he hi
      refine ⟨m, ?_, ?_⟩
      · rw [hnz]; simp [he, hm1]
      · rw [List.getElem?_append_left hm, hm2]
    | succ k =>
      obtain ⟨m, hm1, hm2⟩ := h2.place k e i tab' cell (by simpa using hk) he hi
      refine ⟨c1.length + m, ?_, ?_⟩
      · rw [hoff, hnz, if_neg (by omega), Nat.add_sub_cancel_left, hm1, Nat.add_assoc]
      · rw [List.getElem?_append_right (by omega), Nat.add_sub_cancel_left, hm2]
  · intro k e i k' e' i' tab1 tab2 cell cell' hk he hi hk' he' hi'
    cases k with
    | zero =>
      obtain rfl : tab = tab1 := by simpa using hk
      cases k' with
      | zero =>
        obtain rfl : tab = tab2 := by simpa using hk'
        have := h1.same 0 e i 0 e' i' tab tab cell cell' rfl he hi rfl he' hi'
        rw [hnz, hnz]
        simpa [he, he'] using this
      | succ k' =>
        obtain ⟨m, hm, hm1, hm2⟩ := hfirst e i cell he hi
        obtain ⟨m', hm1', hm2'⟩ := h2.place k' e' i' tab2 cell' (by simpa using hk') he' hi'
        rw [hoff, hnz, hnz, if_neg (show ¬ tab.length + _ < tab.length by omega), Nat.add_sub_cancel_left, hm1']
        simp only [List.take_zero, List.map_nil, List.sum_nil, Nat.zero_add, he, if_true, hm1, Option.some.injEq]
        constructor
        · intro hh; omega
        · rintro ⟨hh, _⟩; omega
    | succ k =>
      cases k' with
      | zero =>
        obtain rfl : tab = tab2 := by simpa using hk'
        obtain ⟨m, hm, hm1, hm2⟩ := hfirst e' i' cell' he' hi'
        obtain ⟨m', hm1', hm2'⟩ := h2.place k e i tab1 cell (by simpa using hk) he hi
        rw [hoff, hnz, hnz, if_neg (show ¬ tab.length + _ < tab.length by omega), Nat.add_sub_cancel_left, hm1']
        simp only [List.take_zero, List.map_nil, List.sum_nil, Nat.zero_add, he', if_true, hm1, Option.some.injEq]
        constructor
        · intro hh; omega
        · rintro ⟨hh, _⟩; omega
      | succ k' =>
        rw [hoff, hoff, hnz, hnz, if_neg (by omega), if_neg (by omega), Nat.add_sub_cancel_left,
          Nat.add_sub_cancel_left, h2.same k e i k' e' i' tab1 tab2 cell cell' (by simpa using hk) he hi
            (by simpa using hk') he' hi']
        simp
  · intro m hm
    rw [List.length_append] at hm
    by_cases hm1 : m < c1.length
    · obtain ⟨i, j, hij⟩ := h1.used m hm1
      refine ⟨i, j, ?_⟩
      have hj : j < tab.length := by
        by_contra hno
        unfold nodeAt at hij
        cases hi : t1[i]? with
        | none => simp [hi] at hij
        | some r =>
          have := hc1 r (List.mem_of_getElem? hi)
          simp [hi, List.getElem?_eq_none (show r.length ≤ j by omega)] at hij
      rw [hnz, if_pos hj, hij]
    · obtain ⟨i, j, hij⟩ := h2.used (m - c1.length) (by omega)
      refine ⟨i, tab.length + j, ?_⟩
      rw [hnz, if_neg (by omega), Nat.add_sub_cancel_left, hij]
      congr 1; omega

theorem elevGo_ok {coords : List (V3 K)} {topo : Topo} {n : Nat} (h : MeshOK coords topo n) :
    ∀ (tables : List (List (List Nat))) (_ : ∀ tab ∈ tables, ∀ t ∈ tab, ∀ q ∈ t, q < n) (nP : Nat),
    ∃ c t, elevGo coords topo tables nP = some (c, t) ∧ ElevOK coords topo tables nP c t
  | [], _, nP => by
    refine ⟨[], topo.map fun _ => [], rfl, ?_⟩
    refine ⟨by simp, by simp, by simp, ?_, by simp⟩
    intro k e i k' e' i' tab tab' cell cell' hk
    simp at hk
  | tab :: rest, ht, nP => by
    obtain ⟨c1, t1, e1, ok1⟩ := elevStep_ok h (ht tab List.mem_cons_self) nP
    obtain ⟨c2, t2, e2, ok2⟩ := elevGo_ok h rest (fun tab' h' => ht tab' (List.mem_cons_of_mem _ h')) (nP + c1.length)
    refine ⟨_, _, ?_, elev_combine ok1 ok2⟩
    simp only [elevGo, e1, Option.bind_eq_bind, Option.bind_some, e2]
    rfl

/-- What a user relies on after order elevation, in terms of points and cells only. `tables` are the edges and
faces, by local node numbers, that get a node; the new columns follow the `n` old ones in the order of the tables. -/
structure Elevated (coords : List (V3 K)) (topo : Topo) (n : Nat) (tables : List (List (List Nat)))
    (coords' : List (V3 K)) (topo' : Topo) : Prop where
  /-- points keep number and position -/
  pts : ∀ m, m < coords.length → coords'[m]? = coords[m]?
  cells : topo'.length = topo.length
  /-- cells keep their corners -/
  corners : ∀ (i j : Nat), j < n → nodeAt topo' i j = nodeAt topo i j
  /-- a new node lies at the mean of the nodes of its edge (face), and is a new point -/
  place : ∀ (k e i : Nat) (tab : List (List Nat)) (cell : List Nat), tables[k]? = some tab → e < tab.length →
    topo[i]? = some cell → ∃ m, coords.length ≤ m ∧
      nodeAt topo' i (n + ((tables.take k).map List.length).sum + e) = some m ∧
      coords'[m]? = some (meanPts (ptsOf coords (entNodes tab cell e)))
  /-- two edges (faces) get the same node iff they have the same nodes, in whatever order -/
  conform : ∀ (k e i k' e' i' : Nat) (tab tab' : List (List Nat)) (cell cell' : List Nat),
    tables[k]? = some tab → e < tab.length → topo[i]? = some cell →
    tables[k']? = some tab' → e' < tab'.length → topo[i']? = some cell' →
    (nodeAt topo' i (n + ((tables.take k).map List.length).sum + e) =
      nodeAt topo' i' (n + ((tables.take k').map List.length).sum + e') ↔
      k = k' ∧ (entNodes tab cell e).Perm (entNodes tab' cell' e'))
  /-- all new points are used -/
  used : ∀ m, coords.length ≤ m → m < coords'.length → ∃ (i j : Nat), nodeAt topo' i j = some m

theorem elevate_ok {coords : List (V3 K)} {topo : Topo} {n : Nat} (h : MeshOK coords topo n)
    {tables : List (List (List Nat))} (ht : ∀ tab ∈ tables, ∀ t ∈ tab, ∀ q ∈ t, q < n) :
    ∃ c t, elevate tables coords topo = some (c, t) ∧ Elevated coords topo n tables c t ∧
      (∀ r ∈ t, r.length = n + (tables.map List.length).sum) ∧ coords.length ≤ c.length ∧
      ∀ (i j m : Nat), nodeAt t i j = some m → m < c.length := by
  obtain ⟨c, t, e, ok⟩ := elevGo_ok h tables ht coords.length
  have hl : topo.length = t.length := ok.rows.symm
  have hnz := nodeAt_zipWith h.len hl
  refine ⟨coords ++ c, List.zipWith (· ++ ·) topo t, by simp only [elevate, e]; rfl, ?_, ?_, by simp, ?_⟩
  · refine ⟨?_, ?_, ?_, ?_, ?_, ?_⟩
    · intro m hm; rw [List.getElem?_append_left hm]
    · simp [hl]
    · intro i j hj; rw [hnz, if_pos hj]
    · intro k e' i tab cell hk he hi
      obtain ⟨m, hm1, hm2⟩ := ok.place k e' i tab cell hk he hi
      refine ⟨coords.length + m, by omega, ?_, ?_⟩
      · rw [hnz, if_neg (by omega), Nat.add_assoc, Nat.add_sub_cancel_left, hm1]
      · rw [List.getElem?_append_right (by omega), Nat.add_sub_cancel_left, hm2]
    · intro k e1 i k' e' i' tab tab' cell cell' hk he hi hk' he' hi'
      rw [hnz, hnz, if_neg (by omega), if_neg (by omega), Nat.add_assoc, Nat.add_assoc, Nat.add_sub_cancel_left,
        Nat.add_sub_cancel_left]
      exact ok.same k e1 i k' e' i' tab tab' cell cell' hk he hi hk' he' hi'
    · intro m hm1 hm2
      rw [List.length_append] at hm2
      obtain ⟨i, j, hij⟩ := ok.used (m - coords.length) (by omega)
      refine ⟨i, n + j, ?_⟩
      rw [hnz, if_neg (by omega), Nat.add_sub_cancel_left, hij]
      congr 1; omega
  · intro r hr
    obtain ⟨i, hi, rfl⟩ := List.mem_iff_getElem.1 hr
    rw [List.getElem_zipWith, List.length_append, h.len _ (List.getElem_mem _), ok.cols _ (List.getElem_mem _)]
  · intro i j m hm
    rw [hnz] at hm
    split at hm
    · have := mem_flatten_of_nodeAt hm
      obtain ⟨cell, hc, hx⟩ := List.mem_flatten.1 this
      have := h.lt cell hc m hx
      rw [List.length_append]; omega
    · -- a new number: find its column
      rename_i hj
      have hi : i < topo.length := by
        by_contra hno
        simp [nodeAt, List.getElem?_eq_none (show t.length ≤ i by omega)] at hm
      have key : ∀ (tables : List (List (List Nat))) (j : Nat), j < (tables.map List.length).sum →
          ∃ (k e : Nat) (tab : List (List Nat)), tables[k]? = some tab ∧ e < tab.length ∧
            j = ((tables.take k).map List.length).sum + e := by
        intro tables
        induction tables with
        | nil => intro j hj; simp at hj
        | cons tab rest ih =>
          intro j hj
          by_cases hjt : j < tab.length
          · exact ⟨0, j, tab, rfl, hjt, by simp⟩
          · obtain ⟨k, e, tab', h1, h2, h3⟩ := ih (j - tab.length) (by simp at hj ⊢; omega)
            exact ⟨k + 1, e, tab', by simpa using h1, h2, by
              rw [List.take_succ_cons, List.map_cons, List.sum_cons]; omega⟩
      have hit : i < t.length := by omega
      have hcol := ok.cols _ (List.getElem_mem hit)
      have hjlt : j - n < (tables.map List.length).sum := by
        simp only [nodeAt, List.getElem?_eq_getElem hit, Option.bind_eq_bind, Option.bind_some] at hm
        have := (List.getElem?_eq_some_iff.1 hm).1
        omega
      obtain ⟨k, e', tab, h1, h2, h3⟩ := key tables (j - n) hjlt
      obtain ⟨m', hm1, hm2⟩ := ok.place k e' i tab _ h1 h2 (List.getElem?_eq_getElem hi)
      rw [← h3, hm] at hm1
      have := (List.getElem?_eq_some_iff.1 hm2).1
      rw [Option.some.injEq] at hm1
      rw [List.length_append]; omega

/-- A node at the centre of every cell, in column `col`, used by nobody else. -/
def Centred (coords : List (V3 K)) (topo : Topo) (col : Nat) (coords' : List (V3 K)) (topo' : Topo) : Prop :=
  ∀ (i : Nat) (cell : List Nat), topo[i]? = some cell → ∃ m, coords.length ≤ m ∧ nodeAt topo' i col = some m ∧
    coords'[m]? = some (meanPts (ptsOf coords cell)) ∧
    ∀ (i' j' : Nat), nodeAt topo' i' j' = some m → i' = i ∧ j' = col

theorem nodeAt_lt {α : Type} {t : List (List α)} {i j : Nat} {x : α} (h : nodeAt t i j = some x) : i < t.length := by
  by_contra hno
  simp [nodeAt, List.getElem?_eq_none (show t.length ≤ i by omega)] at h

theorem elevateC_ok {coords : List (V3 K)} {topo : Topo} {n : Nat} (h : MeshOK coords topo n)
    {tables : List (List (List Nat))} (ht : ∀ tab ∈ tables, ∀ t ∈ tab, ∀ q ∈ t, q < n) :
    ∃ c t, elevateC tables coords topo = some (c, t) ∧ Elevated coords topo n tables c t ∧
      Centred coords topo (n + (tables.map List.length).sum) c t ∧
      (∀ r ∈ t, r.length = n + (tables.map List.length).sum + 1) ∧ coords.length ≤ c.length ∧
      ∀ (i j m : Nat), nodeAt t i j = some m → m < c.length := by
  obtain ⟨c, t, e, ok, hw, hle, hlt⟩ := elevate_ok h ht
  have hm : meanRows coords topo = some (topo.map fun r => meanPts (ptsOf coords r)) := meanRows_some h.lt
  have hl2 : t.length = ((List.range topo.length).map fun i => [i + c.length]).length := by simp [ok.cells]
  have hnz := nodeAt_zipWith hw hl2
  set N := n + (tables.map List.length).sum with hN
  have hcen : ∀ (i j m : Nat), nodeAt ((List.range topo.length).map fun i => [i + c.length]) i j = some m ↔
      i < topo.length ∧ j = 0 ∧ m = i + c.length := by
    intro i j m
    unfold nodeAt
    rw [List.getElem?_map]
    by_cases hi : i < topo.length
    · rw [List.getElem?_range hi]
      cases j with
      | zero => simp [hi, eq_comm]
      | succ j => simp
    · rw [List.getElem?_eq_none (by simpa using hi)]
      simp [hi]
  have hold : ∀ (i j m : Nat), nodeAt (List.zipWith (· ++ ·) t ((List.range topo.length).map fun i => [i + c.length])) i j
      = some m → (j < N ∧ nodeAt t i j = some m) ∨ (j = N ∧ i < topo.length ∧ m = i + c.length) := by
    intro i j m hh
    rw [hnz] at hh
    split at hh
    · left; exact ⟨‹_›, hh⟩
    · right
      obtain ⟨h1, h2, h3⟩ := (hcen _ _ _).1 hh
      exact ⟨by omega, h1, h3⟩
  have htake : ∀ (tables : List (List (List Nat))) (k : Nat) tab, tables[k]? = some tab →
      ((tables.take k).map List.length).sum + tab.length ≤ (tables.map List.length).sum := by
    intro tables
    induction tables with
    | nil => intro k tab hk; simp at hk
    | cons t0 rest ih =>
      intro k tab hk
      cases k with
      | zero => simp at hk; subst hk; simp
      | succ k =>
        have := ih k tab (by simpa using hk)
        rw [List.take_succ_cons, List.map_cons, List.sum_cons, List.map_cons, List.sum_cons]; omega
  refine ⟨c ++ topo.map fun r => meanPts (ptsOf coords r), _, by simp only [elevateC, e, hm]; rfl, ?_, ?_, ?_, ?_, ?_⟩
  · refine ⟨?_, ?_, ?_, ?_, ?_, ?_⟩
    · intro m hm; rw [List.getElem?_append_left (by omega)]; exact ok.pts m hm
    · simp [ok.cells]
    · intro i j hj; rw [hnz, if_pos (by omega)]; exact ok.corners i j hj
    · intro k e' i tab cell hk he hi
      obtain ⟨m, h1, h2, h3⟩ := ok.place k e' i tab cell hk he hi
      have := htake _ k tab hk
      refine ⟨m, h1, ?_, ?_⟩
      · rw [hnz, if_pos (by omega), h2]
      · rw [List.getElem?_append_left (List.getElem?_eq_some_iff.1 h3).1, h3]
    · intro k e1 i k' e' i' tab tab' cell cell' hk he hi hk' he' hi'
      have h1 := htake _ k tab hk
      have h2 := htake _ k' tab' hk'
      rw [hnz, hnz, if_pos (by omega), if_pos (by omega)]
      exact ok.conform k e1 i k' e' i' tab tab' cell cell' hk he hi hk' he' hi'
    · intro m hm1 hm2
      rw [List.length_append, List.length_map] at hm2
      by_cases hmc : m < c.length
      · obtain ⟨i, j, hij⟩ := ok.used m hm1 hmc
        refine ⟨i, j, ?_⟩
        have hj : j < N := by
          unfold nodeAt at hij
          cases hi : t[i]? with
          | none => simp [hi] at hij
          | some r =>
            have := hw r (List.mem_of_getElem? hi)
            simp only [hi, Option.bind_eq_bind, Option.bind_some] at hij
            have := (List.getElem?_eq_some_iff.1 hij).1
            omega
        rw [hnz, if_pos hj, hij]
      · refine ⟨m - c.length, N, ?_⟩
        rw [hnz, if_neg (by omega), (hcen _ _ m).2 ⟨by omega, by omega, by omega⟩]
  · intro i cell hi
    have hil := (List.getElem?_eq_some_iff.1 hi).1
    refine ⟨i + c.length, by omega, ?_, ?_, ?_⟩
    · rw [hnz, if_neg (by omega), (hcen _ _ (i + c.length)).2 ⟨hil, by omega, rfl⟩]
    · rw [List.getElem?_append_right (by omega), Nat.add_sub_cancel, List.getElem?_map, hi, Option.map_some]
    · intro i' j' hh
      rcases hold i' j' _ hh with ⟨_, h2⟩ | ⟨h1, _, h3⟩
      · have := hlt _ _ _ h2; omega
      · exact ⟨by omega, h1⟩
  · intro r hr
    obtain ⟨i, hi, rfl⟩ := List.mem_iff_getElem.1 hr
    rw [List.getElem_zipWith, List.length_append, hw _ (List.getElem_mem _)]
    simp
  · rw [List.length_append]; omega
  · intro i j m hh
    rw [List.length_append, List.length_map]
    rcases hold i j m hh with ⟨_, h2⟩ | ⟨_, h2, h3⟩
    · have := hlt _ _ _ h2; omega
    · omega

/-! ## node order of the new cells -/

/-- Cells that are affine images of the master cell `lcS` become affine images, by the same map, of the master
cell `lcB`: the new nodes have the positions, in the order, of the new cell type. -/
def Ordered (coords : List (V3 K)) (topo : Topo) (lcS : List (V3 Int)) (coords' : List (V3 K)) (topo' : Topo)
    (lcB : List (V3 Int)) : Prop :=
  ∀ (i : Nat) (cell : List Nat) (A : Aff K), topo[i]? = some cell →
    (∀ q, q < lcS.length → coords[cell.getD q 0]? = some (A.app (half (lcS.getD q 0)))) →
    ∀ j, j < lcB.length → ∃ m, nodeAt topo' i j = some m ∧ coords'[m]? = some (A.app (half (lcB.getD j 0)))

/-- The position `w` is the mean of the listed nodes of `lc`. -/
def isMean (lc : List (V3 Int)) (t : List Nat) (w : V3 Int) : Bool :=
  t ≠ [] && decide ((t.map fun q => (lc.getD q 0).x).sum = t.length * w.x) &&
    decide ((t.map fun q => (lc.getD q 0).y).sum = t.length * w.y) &&
    decide ((t.map fun q => (lc.getD q 0).z).sum = t.length * w.z)

theorem sum_affine (f : Nat → Int) (o a : K) : ∀ t : List Nat,
    (t.map fun q => o + (f q : K) / 2 * a).sum = t.length * o + ((t.map f).sum : Int) / 2 * a
  | [] => by simp
  | q :: t => by simp [sum_affine f o a t]; ring

theorem meanPts_affine [CharZero K] {lc : List (V3 Int)} {t : List Nat} {w : V3 Int} (h : isMean lc t w = true) (A : Aff K) :
    meanPts (t.map fun q => A.app (half (lc.getD q 0))) = A.app (half w) := by
  simp only [isMean, Bool.and_eq_true, decide_eq_true_eq, ne_eq] at h
  obtain ⟨⟨⟨h0, hx⟩, hy⟩, hz⟩ := h
  have hl : (t.length : K) ≠ 0 := by
    have : t.length ≠ 0 := by simpa using h0
    exact_mod_cast this
  have key : ∀ o a b c : K, (t.map fun q => o + ((((lc.getD q 0).x : Int) : K) / 2 * a + (((lc.getD q 0).y : Int) : K) / 2 * b +
      (((lc.getD q 0).z : Int) : K) / 2 * c)).sum / t.length =
      o + ((w.x : K) / 2 * a + (w.y : K) / 2 * b + (w.z : K) / 2 * c) := by
    intro o a b c
    have hxk := congrArg (fun z : Int => (z : K)) hx
    have hyk := congrArg (fun z : Int => (z : K)) hy
    have hzk := congrArg (fun z : Int => (z : K)) hz
    simp only [Int.cast_mul, Int.cast_natCast] at hxk hyk hzk
    have e : ∀ t : List Nat, (t.map fun q => o + ((((lc.getD q 0).x : Int) : K) / 2 * a + (((lc.getD q 0).y : Int) : K) / 2 * b +
      (((lc.getD q 0).z : Int) : K) / 2 * c)).sum = t.length * o +
        (((t.map fun q => (lc.getD q 0).x).sum : Int) / 2 * a + ((t.map fun q => (lc.getD q 0).y).sum : Int) / 2 * b +
        ((t.map fun q => (lc.getD q 0).z).sum : Int) / 2 * c) := by
      intro t
      induction t with
      | nil => simp
      | cons q t ih => simp only [List.map_cons, List.sum_cons, ih, List.length_cons]; push_cast; ring
    rw [e, hxk, hyk, hzk]
    field_simp
  unfold meanPts
  rw [List.map_map, List.map_map, List.map_map, List.length_map]
  ext
  · exact key A.o.x A.a.x A.b.x A.c.x
  · exact key A.o.y A.a.y A.b.y A.c.y
  · exact key A.o.z A.a.z A.b.z A.c.z

/-- Check of a table against the node positions of the new cell. -/
def orderCheck (lcS lcB : List (V3 Int)) (tables : List (List (List Nat))) : Bool :=
  (List.range lcS.length).all (fun q => lcB.getD q 0 == lcS.getD q 0) &&
  (List.range tables.length).all fun k => (List.range (tables.getD k []).length).all fun e =>
    isMean lcS ((tables.getD k []).getD e []) (lcB.getD (lcS.length + ((tables.take k).map List.length).sum + e) 0)

theorem exists_column : ∀ (tables : List (List (List Nat))) (j : Nat), j < (tables.map List.length).sum →
    ∃ (k e : Nat) (tab : List (List Nat)), tables[k]? = some tab ∧ e < tab.length ∧
      j = ((tables.take k).map List.length).sum + e := by
  intro tables
  induction tables with
  | nil => intro j hj; simp at hj
  | cons tab rest ih =>
    intro j hj
    by_cases hjt : j < tab.length
    · exact ⟨0, j, tab, rfl, hjt, by simp⟩
    · obtain ⟨k, e, tab', h1, h2, h3⟩ := ih (j - tab.length) (by simp at hj ⊢; omega)
      exact ⟨k + 1, e, tab', by simpa using h1, h2, by
        rw [List.take_succ_cons, List.map_cons, List.sum_cons]; omega⟩

theorem ptsOf_affine {coords : List (V3 K)} {cell : List Nat} {A : Aff K} {lcS : List (V3 Int)} {t : List Nat}
    (hc : ∀ q, q < lcS.length → coords[cell.getD q 0]? = some (A.app (half (lcS.getD q 0))))
    (ht : ∀ q ∈ t, q < lcS.length) :
    ptsOf coords (t.map fun q => cell.getD q 0) = t.map fun q => A.app (half (lcS.getD q 0)) := by
  unfold ptsOf
  rw [List.map_map]
  apply List.map_congr_left
  intro q hq
  simp only [Function.comp]
  have := hc q (ht q hq)
  rw [List.getD_eq_getElem?_getD, this, Option.getD_some]

theorem ordered_of [CharZero K] {coords : List (V3 K)} {topo : Topo} {tables : List (List (List Nat))} {c : List (V3 K)}
    {t : Topo} {lcS lcB : List (V3 Int)} (h : MeshOK coords topo lcS.length)
    (ht : ∀ tab ∈ tables, ∀ t ∈ tab, ∀ q ∈ t, q < lcS.length)
    (ok : Elevated coords topo lcS.length tables c t)
    (hc : orderCheck lcS lcB tables = true) (i : Nat) (cell : List Nat) (A : Aff K) (hi : topo[i]? = some cell)
    (hA : ∀ q, q < lcS.length → coords[cell.getD q 0]? = some (A.app (half (lcS.getD q 0)))) (j : Nat)
    (hj : j < lcS.length + (tables.map List.length).sum) :
    ∃ m, nodeAt t i j = some m ∧ c[m]? = some (A.app (half (lcB.getD j 0))) := by
  simp only [orderCheck, Bool.and_eq_true, List.all_eq_true, List.mem_range, beq_iff_eq] at hc
  by_cases hjs : j < lcS.length
  · have hcl := h.len cell (List.mem_of_getElem? hi)
    have hjc : j < cell.length := by omega
    refine ⟨cell[j], ?_, ?_⟩
    · rw [ok.corners i j hjs]; simp [nodeAt, hi, List.getElem?_eq_getElem hjc]
    · rw [ok.pts _ (h.lt cell (List.mem_of_getElem? hi) _ (List.getElem_mem hjc)), hc.1 j hjs, ← hA j hjs,
        getD_of_lt hjc]
  · obtain ⟨k, e, tab, h1, h2, h3⟩ := exists_column tables (j - lcS.length) (by omega)
    obtain ⟨m, _, h5, h6⟩ := ok.place k e i tab cell h1 h2 hi
    have hk := (List.getElem?_eq_some_iff.1 h1)
    have hgk : tables.getD k [] = tab := by rw [getD_of_lt hk.1, hk.2]
    have hcheck := hc.2 k hk.1 e (by rw [hgk]; exact h2)
    rw [hgk] at hcheck
    have hj' : lcS.length + ((tables.take k).map List.length).sum + e = j := by omega
    rw [hj'] at h5 hcheck
    refine ⟨m, h5, ?_⟩
    rw [h6, ← meanPts_affine hcheck A, entNodes, ptsOf_affine hA]
    intro q hq
    exact ht tab (List.mem_of_getElem? h1) _ (by rw [getD_of_lt h2]; exact List.getElem_mem h2) q hq

theorem orderedC_of [CharZero K] {coords : List (V3 K)} {topo : Topo} {tables : List (List (List Nat))} {c : List (V3 K)}
    {t : Topo} {lcS lcB : List (V3 Int)} (h : MeshOK coords topo lcS.length)
    (ht : ∀ tab ∈ tables, ∀ t ∈ tab, ∀ q ∈ t, q < lcS.length)
    (ok : Elevated coords topo lcS.length tables c t)
    (okc : Centred coords topo (lcS.length + (tables.map List.length).sum) c t)
    (hc : orderCheck lcS lcB tables = true)
    (hm : isMean lcS (List.range lcS.length) (lcB.getD (lcS.length + (tables.map List.length).sum) 0) = true)
    (hl : lcB.length = lcS.length + (tables.map List.length).sum + 1) :
    Ordered coords topo lcS c t lcB := by
  intro i cell A hi hA j hj
  by_cases hjl : j < lcS.length + (tables.map List.length).sum
  · exact ordered_of h ht ok hc i cell A hi hA j hjl
  · have hj' : j = lcS.length + (tables.map List.length).sum := by omega
    subst hj'
    obtain ⟨m, _, h2, h3, _⟩ := okc i cell hi
    refine ⟨m, h2, ?_⟩
    rw [h3, ← meanPts_affine hm A, ← ptsOf_affine hA (by simp)]
    congr 3
    apply List.ext_getElem
    · simp [h.len cell (List.mem_of_getElem? hi)]
    · intro q h1 h2
      simp [List.getElem?_eq_getElem h1]

/-! ## the library functions -/

/-- All a user relies on, in one place. -/
structure ElevatedMesh (coords : List (V3 K)) (topo : Topo) (lcS : List (V3 Int)) (tables : List (List (List Nat)))
    (lcB : List (V3 Int)) (c : List (V3 K)) (t : Topo) : Prop where
  elevated : Elevated coords topo lcS.length tables c t
  width : ∀ r ∈ t, r.length = lcB.length
  inRange : ∀ (i j m : Nat), nodeAt t i j = some m → m < c.length
  ordered : Ordered coords topo lcS c t lcB

variable [CharZero K]

theorem elevate_mesh {coords : List (V3 K)} {topo : Topo} {lcS lcB : List (V3 Int)} {tables : List (List (List Nat))}
    (h : MeshOK coords topo lcS.length) (ht : ∀ tab ∈ tables, ∀ t ∈ tab, ∀ q ∈ t, q < lcS.length)
    (hc : orderCheck lcS lcB tables = true) (hl : lcB.length = lcS.length + (tables.map List.length).sum) :
    ∃ c t, elevate tables coords topo = some (c, t) ∧ ElevatedMesh coords topo lcS tables lcB c t := by
  obtain ⟨c, t, e, ok, hw, _, hlt⟩ := elevate_ok h ht
  exact ⟨c, t, e, ok, by rw [hl]; exact hw, hlt, fun i cell A hi hA j hj =>
    ordered_of h ht ok hc i cell A hi hA j (by rw [← hl]; exact hj)⟩

theorem elevateC_mesh {coords : List (V3 K)} {topo : Topo} {lcS lcB : List (V3 Int)} {tables : List (List (List Nat))}
    (h : MeshOK coords topo lcS.length) (ht : ∀ tab ∈ tables, ∀ t ∈ tab, ∀ q ∈ t, q < lcS.length)
    (hc : orderCheck lcS lcB tables = true)
    (hm : isMean lcS (List.range lcS.length) (lcB.getD (lcS.length + (tables.map List.length).sum) 0) = true)
    (hl : lcB.length = lcS.length + (tables.map List.length).sum + 1) :
    ∃ c t, elevateC tables coords topo = some (c, t) ∧ ElevatedMesh coords topo lcS tables lcB c t ∧
      Centred coords topo (lcB.length - 1) c t := by
  obtain ⟨c, t, e, ok, okc, hw, _, hlt⟩ := elevateC_ok h ht
  exact ⟨c, t, e, ⟨ok, by rw [hl]; exact hw, hlt, orderedC_of h ht ok okc hc hm hl⟩, by
    rw [hl, Nat.add_sub_cancel]; exact okc⟩

/-- **C12** `T3_to_T6`. -/
theorem C12_T3_to_T6 (coords : List (V3 K)) (topo : Topo) (h : MeshOK coords topo 3) :
    ∃ c t, t3ToT6 coords topo = some (c, t) ∧
      ElevatedMesh coords topo lcT3 [[[0, 1], [1, 2], [2, 0]]] lcT6 c t :=
  elevate_mesh (lcS := lcT3) h (by decide) (by decide) (by decide)

/-- **C12** `Q4_to_Q8`. -/
theorem C12_Q4_to_Q8 (coords : List (V3 K)) (topo : Topo) (h : MeshOK coords topo 4) :
    ∃ c t, q4ToQ8 coords topo = some (c, t) ∧
      ElevatedMesh coords topo lcQ4 [[[0, 1], [1, 2], [2, 3], [3, 0]]] lcQ8 c t :=
  elevate_mesh (lcS := lcQ4) h (by decide) (by decide) (by decide)

/-- **C12** `Q4_to_Q9`. -/
theorem C12_Q4_to_Q9 (coords : List (V3 K)) (topo : Topo) (h : MeshOK coords topo 4) :
    ∃ c t, q4ToQ9 coords topo = some (c, t) ∧
      ElevatedMesh coords topo lcQ4 [[[0, 1], [1, 2], [2, 3], [3, 0]]] lcQ9 c t ∧ Centred coords topo 8 c t :=
  elevateC_mesh (lcS := lcQ4) (lcB := lcQ9) h (by decide) (by decide) (by decide) (by decide)

/-- **C12** `TET4_to_TET10`. -/
theorem C12_TET4_to_TET10 (coords : List (V3 K)) (topo : Topo) (h : MeshOK coords topo 4) :
    ∃ c t, tet4ToTet10 coords topo = some (c, t) ∧
      ElevatedMesh coords topo lcTET4 [[[0, 1], [1, 2], [2, 0], [0, 3], [1, 3], [2, 3]]] lcTET10 c t :=
  elevate_mesh (lcS := lcTET4) h (by decide) (by decide) (by decide)

/-- **C12** `H8_to_H27`. -/
theorem C12_H8_to_H27 (coords : List (V3 K)) (topo : Topo) (h : MeshOK coords topo 8) :
    ∃ c t, h8ToH27 coords topo = some (c, t) ∧
      ElevatedMesh coords topo lcH8
        [[[0, 1], [1, 2], [2, 3], [3, 0], [4, 5], [5, 6], [6, 7], [7, 4], [0, 4], [1, 5], [2, 6], [3, 7]],
         [[0, 4, 7, 3], [1, 2, 6, 5], [0, 1, 5, 4], [2, 3, 7, 6], [0, 3, 2, 1], [4, 5, 6, 7]]] lcH27 c t ∧
      Centred coords topo 26 c t :=
  elevateC_mesh (lcS := lcH8) (lcB := lcH27) h (by decide) (by decide) (by decide) (by decide)

/-- **C12** `W6_to_W18`. Missing: `faces_W6`, called on the way, writes outside of its array
(`C11_faces_W6_false`); this is what the function computes where that write does no harm. -/
theorem C12_W6_to_W18_partial (coords : List (V3 K)) (topo : Topo) (h : MeshOK coords topo 6) :
    ∃ c t, w6ToW18Quads coords topo = some (c, t) ∧
      ElevatedMesh coords topo lcW6
        [[[0, 1], [1, 2], [2, 0], [3, 4], [4, 5], [5, 3], [0, 3], [1, 4], [2, 5]],
         [[4, 3, 0, 1], [5, 4, 1, 2], [3, 5, 2, 0]]] lcW18 c t :=
  elevate_mesh (lcS := lcW6) h (by decide) (by decide) (by decide)

omit [CharZero K] in
/-- **C12**, negation: `W6_to_W18` has no defined result on any mesh. -/
theorem C12_W6_to_W18_false (coords : List (V3 K)) (topo : Topo) : w6ToW18 coords topo = none := rfl

theorem perm_pair {a b c d : Nat} : [a, b].Perm [c, d] ↔ a = c ∧ b = d ∨ a = d ∧ b = c := by
  constructor
  · intro h
    have ha : a ∈ [c, d] := h.mem_iff.1 (by simp)
    simp only [List.mem_cons, List.not_mem_nil, or_false] at ha
    rcases ha with rfl | rfl
    · left; exact ⟨rfl, by simpa using h⟩
    · right
      have h2 := h.trans (List.Perm.swap a c [])
      exact ⟨rfl, by simpa using h2⟩
  · rintro (⟨rfl, rfl⟩ | ⟨rfl, rfl⟩)
    · exact List.Perm.refl _
    · exact List.Perm.swap b a []

/-- **C12** `L2_to_L3`: ends in columns 0 and 2, the new node, at the mean, between them. -/
theorem C12_L2_to_L3 (coords : List (V3 K)) (topo : Topo) (h : MeshOK coords topo 2) :
    ∃ c t, l2ToL3 coords topo = some (c, t) ∧ t.length = topo.length ∧
      (∀ m, m < coords.length → c[m]? = coords[m]?) ∧
      (∀ (i a b : Nat), topo[i]? = some [a, b] → ∃ m, t[i]? = some [a, m, b] ∧ coords.length ≤ m ∧
        ∃ pa pb, coords[a]? = some pa ∧ coords[b]? = some pb ∧ c[m]? = some (mid pa pb)) ∧
      (∀ (i a b m i' a' b' m' : Nat), topo[i]? = some [a, b] → t[i]? = some [a, m, b] → topo[i']? = some [a', b'] →
        t[i']? = some [a', m', b'] → (m = m' ↔ a = a' ∧ b = b' ∨ a = b' ∧ b = a')) ∧
      (∀ m, coords.length ≤ m → m < c.length → ∃ i, nodeAt t i 1 = some m) := by
  obtain ⟨c, t, e, ok, hw, hle, hlt⟩ := elevate_ok (tables := [[[0, 1]]]) h (by decide)
  have hrow : ∀ (i a b : Nat), topo[i]? = some [a, b] → ∃ m, t[i]? = some [a, b, m] ∧ coords.length ≤ m ∧
      nodeAt t i 2 = some m ∧ c[m]? = some (meanPts (ptsOf coords [a, b])) := by
    intro i a b hi
    obtain ⟨m, h1, h2, h3⟩ := ok.place 0 0 i _ _ rfl (by simp) hi
    have hi2 : i < t.length := nodeAt_lt h2
    have hlen := hw _ (List.getElem_mem hi2)
    refine ⟨m, ?_, h1, h2, h3⟩
    rw [List.getElem?_eq_getElem hi2]
    have c0 := ok.corners i 0 (by simp)
    have c1 := ok.corners i 1 (by simp)
    simp only [nodeAt, hi, List.getElem?_eq_getElem hi2, Option.bind_eq_bind, Option.bind_some] at c0 c1 h2
    congr 1
    generalize t[i] = r at hlen c0 c1 h2
    match r, hlen with
    | [x, y, z], _ => simp at c0 c1 h2; simp [c0, c1, h2]
  have hrow' : ∀ i, i < t.length → ∃ (a b m : Nat), topo[i]? = some [a, b] ∧ t[i]? = some [a, b, m] := by
    intro i hi
    have hi' : i < topo.length := by rw [← ok.cells]; exact hi
    have := h.len _ (List.getElem_mem hi')
    match hr : topo[i], this with
    | [a, b], _ =>
      obtain ⟨m, hm, _⟩ := hrow i a b (by rw [List.getElem?_eq_getElem hi', hr])
      exact ⟨a, b, m, by rw [List.getElem?_eq_getElem hi', hr], hm⟩
  have hmap : t.mapM ikj =
      some (t.map fun r => [r.getD 0 0, r.getD 2 0, r.getD 1 0]) := by
    apply mapM_some
    intro r hr
    obtain ⟨i, hi, rfl⟩ := List.mem_iff_getElem.1 hr
    obtain ⟨a, b, m, _, h2⟩ := hrow' i hi
    rw [List.getElem?_eq_getElem hi, Option.some.injEq] at h2
    rw [h2]; rfl
  have hgoal : ∀ (i a b : Nat), topo[i]? = some [a, b] → ∃ m,
      (t.map fun r => [r.getD 0 0, r.getD 2 0, r.getD 1 0])[i]? = some [a, m, b] ∧ coords.length ≤ m ∧
      nodeAt t i 2 = some m ∧ c[m]? = some (meanPts (ptsOf coords [a, b])) := by
    intro i a b hi
    obtain ⟨m, h1, h2, h3, h4⟩ := hrow i a b hi
    exact ⟨m, by rw [List.getElem?_map, h1]; rfl, h2, h3, h4⟩
  refine ⟨c, _, by simp only [l2ToL3, e, Option.bind_eq_bind, Option.bind_some]; rw [hmap]; rfl, by simp [ok.cells], ok.pts, ?_, ?_, ?_⟩
  · intro i a b hi
    obtain ⟨m, h1, h2, _, h4⟩ := hgoal i a b hi
    have hlt' := h.lt _ (List.mem_of_getElem? hi)
    have ha := hlt' a (by simp)
    have hb := hlt' b (by simp)
    refine ⟨m, h1, h2, coords[a], coords[b], List.getElem?_eq_getElem ha, List.getElem?_eq_getElem hb, ?_⟩
    rw [h4]
    simp only [ptsOf, List.map_cons, List.map_nil, getD_of_lt ha, getD_of_lt hb, meanPts, mid]
    congr 1
    ext <;> simp <;> ring
  · intro i a b m i' a' b' m' hi ht hi' ht'
    obtain ⟨k, h1, _, h3, _⟩ := hgoal i a b hi
    obtain ⟨k', h1', _, h3', _⟩ := hgoal i' a' b' hi'
    rw [ht] at h1; rw [ht'] at h1'
    simp only [Option.some.injEq, List.cons.injEq, true_and, and_true] at h1 h1'
    subst h1 h1'
    have := ok.conform 0 0 i 0 0 i' _ _ _ _ rfl (by simp) hi rfl (by simp) hi'
    simp only [List.take_zero, List.map_nil, List.sum_nil, Nat.add_zero, h3, h3', Option.some.injEq, true_and, entNodes] at this
    rw [this]
    simp only [List.getD_cons_zero, List.map_cons, List.map_nil, List.getD_cons_succ]
    exact perm_pair
  · intro m h1 h2
    obtain ⟨i, j, hij⟩ := ok.used m h1 h2
    obtain ⟨a, b, k, hi, hk⟩ := hrow' i (nodeAt_lt hij)
    obtain ⟨m', hm1, hm2, hm3, _⟩ := hgoal i a b hi
    refine ⟨i, ?_⟩
    have hlt' := h.lt _ (List.mem_of_getElem? hi)
    have ha := hlt' a (by simp)
    have hb := hlt' b (by simp)
    have e1 : m = m' := by
      simp only [nodeAt, hk, Option.bind_eq_bind, Option.bind_some] at hij hm3
      match j with
      | 0 => simp at hij; omega
      | 1 => simp at hij; omega
      | 2 => rw [hm3] at hij; exact (Option.some.inj hij).symm
      | j + 3 => simp at hij
    unfold nodeAt
    rw [hm1]
    simp [e1]

/-! ## the subdivisions of elevated cells keep the volume -/

/-- Point of a node of a cell. -/
def cellX (c : List (V3 K)) (t : Topo) (i j : Nat) : V3 K := c.getD ((nodeAt t i j).getD 0) 0

omit [CharZero K] in
theorem elevated_mean {coords : List (V3 K)} {topo : Topo} {n : Nat} {tables : List (List (List Nat))}
    {c : List (V3 K)} {t : Topo} (h : MeshOK coords topo n) (ok : Elevated coords topo n tables c t) {i : Nat}
    (hi : i < topo.length) (k e : Nat) (tab : List (List Nat)) (hk : tables[k]? = some tab) (he : e < tab.length)
    (hq : ∀ q ∈ tab.getD e [], q < n) :
    cellX c t i (n + ((tables.take k).map List.length).sum + e) = meanPts ((tab.getD e []).map (cellX c t i)) := by
  obtain ⟨m, _, h2, h3⟩ := ok.place k e i tab _ hk he (List.getElem?_eq_getElem hi)
  rw [cellX, h2, Option.getD_some, List.getD_eq_getElem?_getD, h3, Option.getD_some, ptsOf, entNodes, List.map_map]
  congr 1
  apply List.map_congr_left
  intro q hqm
  have hl := h.len _ (List.getElem_mem hi)
  have hql : q < topo[i].length := by rw [hl]; exact hq q hqm
  have hlt := h.lt _ (List.getElem_mem hi) _ (List.getElem_mem hql)
  have hn : nodeAt t i q = some topo[i][q] := by
    rw [ok.corners i q (hq q hqm)]; simp [nodeAt, List.getElem?_eq_getElem hi, List.getElem?_eq_getElem hql]
  have hp := ok.pts _ hlt
  simp only [Function.comp, cellX, hn, Option.getD_some, List.getD_eq_getElem?_getD, hp,
    List.getElem?_eq_getElem hql]

omit [CharZero K] in
theorem meanPts_two (p q : V3 K) : meanPts [p, q] = mid p q := by
  ext <;> simp [meanPts, mid] <;> ring
omit [CharZero K] in
theorem meanPts_four (p q r s : V3 K) : meanPts [p, q, r, s] = mid4 p q r s := by
  ext <;> simp [meanPts, mid4] <;> ring

/-- **C12** the cells of `H8_to_H27` are straight in the sense of `C13_H27_to_H8`: elevation followed by
subdivision keeps the volume of every cell. -/
theorem C12_H8_to_H27_volume {K : Type} [Field K] [LinearOrder K] [IsStrictOrderedRing K] (coords : List (V3 K)) (topo : Topo) (h : MeshOK coords topo 8) :
    ∃ c t, h8ToH27 coords topo = some (c, t) ∧ ∀ i, i < topo.length → Straight27 (cellX c t i) ∧
      (pathH27H8.map fun p => hexVol12 (sub (cellX c t i) p)).sum = hexVol12 (cellX coords topo i) := by
  obtain ⟨c, t, e, ok, _⟩ := C12_H8_to_H27 coords topo h
  refine ⟨c, t, e, fun i hi => ?_⟩
  have hs : Straight27 (cellX c t i) := by
    have h1 := fun (e : Nat) he hq => elevated_mean h ok.elevated hi 0 e _ rfl he hq
    have h2 := fun (e : Nat) he hq => elevated_mean h ok.elevated hi 1 e _ rfl he hq
    constructor
    · rw [← meanPts_two]; exact h1 0 (by decide) (by decide)
    · rw [← meanPts_two]; exact h1 1 (by decide) (by decide)
    · rw [← meanPts_two]; exact h1 2 (by decide) (by decide)
    · rw [← meanPts_two]; exact h1 3 (by decide) (by decide)
    · rw [← meanPts_two]; exact h1 4 (by decide) (by decide)
    · rw [← meanPts_two]; exact h1 5 (by decide) (by decide)
    · rw [← meanPts_two]; exact h1 6 (by decide) (by decide)
    · rw [← meanPts_two]; exact h1 7 (by decide) (by decide)
    · rw [← meanPts_two]; exact h1 8 (by decide) (by decide)
    · rw [← meanPts_two]; exact h1 9 (by decide) (by decide)
    · rw [← meanPts_two]; exact h1 10 (by decide) (by decide)
    · rw [← meanPts_two]; exact h1 11 (by decide) (by decide)
    · rw [← meanPts_four]; exact h2 0 (by decide) (by decide)
    · rw [← meanPts_four]; exact h2 1 (by decide) (by decide)
    · rw [← meanPts_four]; exact h2 2 (by decide) (by decide)
    · rw [← meanPts_four]; exact h2 3 (by decide) (by decide)
    · rw [← meanPts_four]; exact h2 4 (by decide) (by decide)
    · rw [← meanPts_four]; exact h2 5 (by decide) (by decide)
  refine ⟨hs, ?_⟩
  rw [C13_H27_to_H8 _ hs]
  have hX : ∀ q, q < 8 → cellX c t i q = cellX coords topo i q := by
    intro q hq
    have hq' := ok.elevated.corners i q hq
    have hl : q < topo[i].length := by rw [h.len _ (List.getElem_mem hi)]; exact hq
    have hn : nodeAt topo i q = some topo[i][q] := by
      simp [nodeAt, List.getElem?_eq_getElem hi, List.getElem?_eq_getElem hl]
    have hp := ok.elevated.pts _ (h.lt _ (List.getElem_mem hi) _ (List.getElem_mem hl))
    simp only [cellX, hq', hn, Option.getD_some, List.getD_eq_getElem?_getD, hp]
  unfold hexVol12
  simp only [hX 0 (by decide), hX 1 (by decide), hX 2 (by decide), hX 3 (by decide), hX 4 (by decide),
    hX 5 (by decide), hX 6 (by decide), hX 7 (by decide)]

/-- Two triangles with a common edge, listed in opposite directions: a mesh of the kind the theorems are about, and
what they say about it: one new node on the common edge. -/
example : t3ToT6 (K := Rat) [⟨0, 0, 0⟩, ⟨1, 0, 0⟩, ⟨1, 1, 0⟩, ⟨0, 1, 0⟩] [[0, 1, 2], [0, 2, 3]] =
    some ([⟨0, 0, 0⟩, ⟨1, 0, 0⟩, ⟨1, 1, 0⟩, ⟨0, 1, 0⟩, ⟨1/2, 0, 0⟩, ⟨1/2, 1/2, 0⟩, ⟨0, 1/2, 0⟩, ⟨1, 1/2, 0⟩, ⟨1/2, 1, 0⟩],
      [[0, 1, 2, 4, 7, 5], [0, 2, 3, 5, 8, 6]]) := by decide +kernel

example : MeshOK (K := Rat) [⟨0, 0, 0⟩, ⟨1, 0, 0⟩, ⟨1, 1, 0⟩, ⟨0, 1, 0⟩] [[0, 1, 2], [0, 2, 3]] 3 :=
  ⟨by decide, by decide⟩

end
end PM
