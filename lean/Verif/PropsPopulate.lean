import Verif.Populate
import Verif.PropsTriang

/-!
# C96: repeated triangulations
-/

namespace PM

/-- Specification: `E` lists every side of the triangles `T` once, and nothing else; `I` has the numbers of the sides of each triangle. -/
structure LinesOf (T E I : Topo) : Prop where
  len : I.length = T.length
  once : ∀ (i j : Nat) (a b : List Nat), E[i]? = some a → E[j]? = some b → a.Perm b → i = j
  side : ∀ (c k : Nat) (t : List Nat), T[c]? = some t → k < 3 → ∃ id e a b, nodeAt I c k = some id ∧ E[id]? = some e ∧
    t[k]? = some a ∧ t[(k + 1) % 3]? = some b ∧ e.Perm [a, b]
  only : ∀ e ∈ E, ∃ t ∈ T, SideOf e t

theorem length_tileTopo (a : Topo) (d N : Nat) : (repeatTopo a d N).length = a.length * N := by
  rw [repeatTopo, length_flatMap_block (n := a.length) fun _ _ => by simp, List.length_range]

/-- Entry `i * a.length + k` of a repeated array. -/
theorem repeatTopo_get (a : Topo) (d N : Nat) {i k : Nat} (hi : i < N) (hk : k < a.length) :
    (repeatTopo a d N)[i * a.length + k]? = (a[k]?).map fun row => row.map fun n => n + i * d := by
  rw [repeatTopo, getElem?_flatMap_block (n := a.length) (fun _ _ => by simp) hk, List.getElem?_range hi]
  simp

theorem split_index {n N c : Nat} (h : c < n * N) : ∃ i k, i < N ∧ k < n ∧ c = i * n + k := by
  have hn : 0 < n := Nat.pos_of_ne_zero fun h0 => by simp [h0] at h
  exact ⟨c / n, c % n, by rw [Nat.div_lt_iff_lt_mul hn, Nat.mul_comm]; exact h, Nat.mod_lt _ hn, by rw [Nat.mul_comm, Nat.div_add_mod]⟩

theorem tileTopo_some {a : Topo} {d N c : Nat} {row : List Nat} (h : (repeatTopo a d N)[c]? = some row) :
    ∃ i k r, i < N ∧ c = i * a.length + k ∧ k < a.length ∧ a[k]? = some r ∧ row = r.map fun n => n + i * d := by
  have hc : c < a.length * N := by
    rw [← length_tileTopo a d N]
    exact (List.getElem?_eq_some_iff.1 h).1
  obtain ⟨i, k, hi, hk, rfl⟩ := split_index hc
  rw [repeatTopo_get a d N hi hk, Option.map_eq_some_iff] at h
  obtain ⟨r, hr, rfl⟩ := h
  exact ⟨i, k, r, hi, rfl, hk, hr, rfl⟩

theorem sideOf_shift {e t : List Nat} (s : Nat) (h : SideOf e t) : SideOf (e.map fun n => n + s) (t.map fun n => n + s) := by
  obtain ⟨i, hi, a, b, ha, hb, hp⟩ := h
  exact ⟨i, hi, a + s, b + s, by rw [List.getElem?_map, ha]; rfl, by rw [List.getElem?_map, hb]; rfl, by simpa using hp.map fun n => n + s⟩

/-- **C96** (lines): the repeated lines are those of the repeated triangles. -/
theorem C96_lines {T E I : Topo} (h : LinesOf T E I) {n : Nat} (hT : ∀ t ∈ T, ∀ x ∈ t, x < n) (N : Nat) :
    LinesOf (repeatTopo T n N) (repeatTopo E n N) (repeatTopo I E.length N) := by
  have hE : ∀ e ∈ E, e ≠ [] ∧ ∀ x ∈ e, x < n := by
    intro e he
    obtain ⟨t, ht, i, hi, a, b, ha, hb, hp⟩ := h.only e he
    refine ⟨fun h0 => ?_, fun x hx => ?_⟩
    · rw [h0] at hp
      simpa using hp.length_eq
    · rcases List.mem_cons.1 (hp.mem_iff.1 hx) with rfl | hx
      · exact hT t ht x (List.mem_of_getElem? ha)
      · exact hT t ht x (by rw [List.mem_singleton.1 hx]; exact List.mem_of_getElem? hb)
  refine ⟨by rw [length_tileTopo, length_tileTopo, h.len], ?_, ?_, ?_⟩
  · intro p q a b ha hb hab
    obtain ⟨i, k, r, hi, rfl, hk, hr, rfl⟩ := tileTopo_some ha
    obtain ⟨j, l, s, hj, rfl, hl, hs, rfl⟩ := tileTopo_some hb
    have hrE := hE r (List.mem_of_getElem? hr)
    have hsE := hE s (List.mem_of_getElem? hs)
    have hij : i = j := by
      obtain ⟨x, hx⟩ := List.exists_mem_of_ne_nil r hrE.1
      have : x + i * n ∈ s.map fun m => m + j * n := hab.mem_iff.1 (List.mem_map_of_mem hx)
      obtain ⟨y, hy, hxy⟩ := List.mem_map.1 this
      have h1 := hrE.2 x hx
      have h2 := hsE.2 y hy
      have hn : 0 < n := by omega
      have h3 := congrArg (· / n) hxy
      simpa [Nat.add_mul_div_right _ _ hn, Nat.div_eq_of_lt h1, Nat.div_eq_of_lt h2] using h3.symm
    subst hij
    have hrs : r.Perm s := (List.map_perm_map_iff fun x y hxy => by simpa using hxy).1 hab
    rw [h.once k l r s hr hs hrs]
  · intro c k t ht hk
    obtain ⟨i, c', t', hi, rfl, hc', ht', rfl⟩ := tileTopo_some ht
    obtain ⟨id, e, a, b, h1, h2, h3, h4, h5⟩ := h.side c' k t' ht' hk
    have hid : id < E.length := (List.getElem?_eq_some_iff.1 h2).1
    refine ⟨id + i * E.length, e.map fun m => m + i * n, a + i * n, b + i * n, ?_, ?_, ?_, ?_, ?_⟩
    · have : (repeatTopo I E.length N)[i * T.length + c']? = (I[c']?).map fun row => row.map fun m => m + i * E.length := by
        rw [← h.len] at hc' ⊢
        exact repeatTopo_get I E.length N hi hc'
      unfold nodeAt at h1 ⊢
      rw [this]
      cases hI : I[c']? with
      | none => rw [hI] at h1; cases h1
      | some row =>
        rw [hI] at h1
        change row[k]? = some id at h1
        change (row.map fun m => m + i * E.length)[k]? = _
        rw [List.getElem?_map, h1]
        rfl
    · rw [Nat.add_comm id, repeatTopo_get E n N hi hid, h2]
      rfl
    · rw [List.getElem?_map, h3]; rfl
    · rw [List.getElem?_map, h4]; rfl
    · simpa using h5.map fun m => m + i * n
  · intro e he
    obtain ⟨c, hc⟩ := List.getElem?_of_mem he
    obtain ⟨i, k, r, hi, -, -, hr, rfl⟩ := tileTopo_some hc
    obtain ⟨t, ht, hs⟩ := h.only r (List.mem_of_getElem? hr)
    refine ⟨t.map fun m => m + i * n, ?_, sideOf_shift _ hs⟩
    exact List.mem_flatMap.2 ⟨i, List.mem_range.2 hi, List.mem_map_of_mem ht⟩

section
variable {K : Type} [Field K]

/-- **C96** (points and triangles): copy `i` has the points moved by `i` times the step, and its triangles are those of the first copy with their own
points. -/
theorem C96_copies (points : List (V3 K)) (topo : Topo) (hT : ∀ t ∈ topo, ∀ x ∈ t, x < points.length) (dp : V3 K) (N : Nat) :
    ∃ P T, populateT3 points topo dp N = (P, T) ∧ P.length = points.length * N ∧ T.length = topo.length * N ∧
      (∀ i k, i < N → k < points.length → ∃ p, points[k]? = some p ∧ P[i * points.length + k]? = some (p + ((i : Nat) : K) • dp)) ∧
      ∀ (i c : Nat) (t : List Nat), i < N → topo[c]? = some t → ∃ t', T[i * topo.length + c]? = some t' ∧ t'.length = t.length ∧
        ∀ (j a : Nat) (p : V3 K), t[j]? = some a → points[a]? = some p → ∃ a', t'[j]? = some a' ∧ P[a']? = some (p + ((i : Nat) : K) • dp) := by
  have hP : ∀ i k, i < N → k < points.length →
      (tilePoints points dp N)[i * points.length + k]? = (points[k]?).map fun p => p + ((i : Nat) : K) • dp := by
    intro i k hi hk
    rw [tilePoints, getElem?_flatMap_block (n := points.length) (fun _ _ => by simp) hk, List.getElem?_range hi]
    simp
  refine ⟨_, _, rfl, ?_, length_tileTopo _ _ _, fun i k hi hk => ?_, fun i c t hi ht => ?_⟩
  · rw [tilePoints, length_flatMap_block (n := points.length) fun _ _ => by simp, List.length_range]
  · exact ⟨points[k], List.getElem?_eq_getElem hk, by rw [hP i k hi hk, List.getElem?_eq_getElem hk]; rfl⟩
  · have hc : c < topo.length := (List.getElem?_eq_some_iff.1 ht).1
    refine ⟨_, by rw [repeatTopo_get _ _ _ hi hc, ht]; rfl, by simp, fun j a p ha hp => ⟨a + i * points.length, by rw [List.getElem?_map, ha]; rfl, ?_⟩⟩
    rw [Nat.add_comm a, hP i a hi (hT t (List.mem_of_getElem? ht) a (List.mem_of_getElem? ha)), hp]
    rfl

/-- **C96** (lines): with lines that are given, or found, the population has every side of its triangles once. -/
theorem C96_populate (points : List (V3 K)) {topo : Topo} (h3 : ∀ t ∈ topo, t.length = 3 ∧ ∀ x ∈ t, x < points.length) (dp : V3 K) (N : Nat)
    (edges edgeIDs : Option Topo) (hE : ∀ E I, edges = some E → edgeIDs = some I → LinesOf topo E I) :
    ∃ P E T I, populateT3Lines points topo dp N edges edgeIDs = some (P, E, T, I) ∧ populateT3 points topo dp N = (P, T) ∧ LinesOf T E I := by
  have main : ∃ l, linesOrGiven topo edges edgeIDs = some l ∧ LinesOf topo l.1 l.2 := by
    obtain ⟨E, I, e1, e2, e3, e4, e5⟩ := C75_lines (triangles := topo) fun t ht => (h3 t ht).1
    cases edges with
    | none => exact ⟨(E, I), by simpa [linesOrGiven] using e1, ⟨e2, e3, e4, e5⟩⟩
    | some E' =>
      cases edgeIDs with
      | none => exact ⟨(E, I), by simpa [linesOrGiven] using e1, ⟨e2, e3, e4, e5⟩⟩
      | some I' => exact ⟨(E', I'), rfl, hE E' I' rfl rfl⟩
  obtain ⟨l, hl, hL⟩ := main
  refine ⟨_, _, _, _, ?_, rfl, C96_lines hL (fun t ht => (h3 t ht).2) N⟩
  unfold populateT3Lines
  rw [hl]
  rfl

end

/-- Two triangles, twice. -/
example : (populateT3Lines [⟨0, 0, 0⟩, ⟨1, 0, 0⟩, ⟨1, 1, 0⟩, (⟨0, 1, 0⟩ : V3 ℚ)] [[0, 1, 2], [0, 2, 3]] ⟨5, 0, 0⟩ 2 none none).map (fun r => r.2) =
    some ([[0, 1], [0, 2], [0, 3], [1, 2], [2, 3], [4, 5], [4, 6], [4, 7], [5, 6], [6, 7]], [[0, 1, 2], [0, 2, 3], [4, 5, 6], [4, 6, 7]],
      [[0, 3, 1], [1, 4, 2], [5, 8, 6], [6, 9, 7]]) := by decide +kernel

end PM
