import Verif.PropsNeigh

/-!
# C94: the default format of `cells_at_nodes` for whole meshes
-/

namespace PM

section
variable {P D : Type}

/-- Both forms of the topology, arrays and sparse matrices, are treated in the same way. -/
theorem raw_eq {toCsr : Topo → Csr} (hcsr : ∀ t, IsCsr t (toCsr t)) (m : List (MBlock P D)) (p : List Nat) :
    meshCellsAtNodesRaw toCsr m p =
      (topologyOf m p).bind fun T => (isRegular T).bind fun r => if r then cellsAtNodesReg T else none := by
  unfold meshCellsAtNodesRaw
  congr 1
  funext T
  rw [(hcsr T).isRegular, (hcsr T).cellsAtNodes, ite_self]

/-- **C94** (default format): there is an answer exactly if the nodes that cells of the mesh use are `0, …, k` for some `k`, whether or not all cells have
the same number of nodes. -/
theorem C94_raw_exact {toCsr : Topo → Csr} (hcsr : ∀ t, IsCsr t (toCsr t)) (m : List (MBlock P D)) (p : List Nat) :
    (∃ s, meshCellsAtNodesRaw toCsr m p = some s) ↔ ∃ k, ∀ n, UsedIn m p n ↔ n ≤ k := by
  rw [raw_eq hcsr]
  cases h : topologyOf m p with
  | none =>
    constructor
    · rintro ⟨s, hs⟩; cases hs
    · rintro ⟨k, hk⟩
      obtain ⟨b, h1, h2, c, h3, -⟩ := (hk k).2 (le_refl k)
      exfalso
      have hne := cellsUnder_ne (m := m) (p := p) ⟨b, h1, h2, by rw [h3]; rfl⟩
      unfold topologyOf at h
      rw [stackAll_map hne] at h
      cases h
  | some T =>
    simp only [usedIn_iff h]
    rw [← (C02_isRegular T).2, Option.bind_some]
    cases hr : isRegular T with
    | none => simp
    | some r =>
      cases r with
      | false => simp
      | true =>
        obtain ⟨k, hk⟩ := (C02_isRegular T).2.1 hr
        obtain ⟨s, hs, -⟩ := C06_cells_at_nodes_raw T k ((hk k).2 (le_refl k)) fun n hn => (hk n).1 hn
        simp [hs]

/-- **C94** (default format): the answer, if there is one. For every node the first places, as many as there are incidences, list the cells at it and its
places in them, in order. The number of a cell is its place in the topology of the mesh. -/
theorem C94_raw {toCsr : Topo → Csr} (hcsr : ∀ t, IsCsr t (toCsr t)) {m : List (MBlock P D)} {p : List Nat} {s : Slots}
    (hs : meshCellsAtNodesRaw toCsr m p = some s) :
    ∃ T, topologyOf m p = some T ∧ (∀ n, UsedIn m p n ↔ n < s.count.length) ∧
      ∀ n, UsedIn m p n → ∃ ps c er nr, IncidenceList T n ps ∧ s.count[n]? = some c ∧ s.ereg[n]? = some er ∧
        s.nreg[n]? = some nr ∧ c = ps.length ∧ er.take c = ps.map Prod.fst ∧ nr.take c = ps.map Prod.snd := by
  obtain ⟨k, hk⟩ := (C94_raw_exact hcsr m p).1 ⟨s, hs⟩
  rw [raw_eq hcsr] at hs
  obtain ⟨T, hT, hs⟩ := Option.bind_eq_some_iff.1 hs
  obtain ⟨r, hr, hs⟩ := Option.bind_eq_some_iff.1 hs
  cases r with
  | false => simp at hs
  | true =>
    have hu := fun n => usedIn_iff hT n
    obtain ⟨s', hs', hl, h⟩ := C06_cells_at_nodes_raw T k ((hu k).1 ((hk k).2 (le_refl k))) fun n hn => (hk n).1 ((hu n).2 hn)
    rw [if_pos rfl, hs', Option.some.injEq] at hs
    subst hs
    exact ⟨T, hT, fun n => by rw [hk, hl]; omega, fun n hn => h n ((hk n).1 hn)⟩

end

/-- A case: lines and a triangle whose nodes are numbered without gaps. -/
def tightMesh : List (MBlock (V3 ℚ) ℚ) :=
  [⟨[], Fr.ambient, some ⟨[⟨0, 0, 0⟩, ⟨1, 0, 0⟩, ⟨0, 1, 0⟩], [0, 1, 2], fun _ => none⟩, none⟩,
   ⟨[0], Fr.ambient, none, some ⟨[[0, 1]], [0], fun _ => none⟩⟩,
   ⟨[1], Fr.ambient, none, some ⟨[[2, 1, 0]], [1], fun _ => none⟩⟩]

example : topologyOf tightMesh [] = some [[0, 1], [2, 1, 0]] ∧ isJagged [[0, 1], [2, 1, 0]] = true ∧
    (meshCellsAtNodesRaw (fun t => ⟨t.flatten, indptrOf (t.map List.length)⟩) tightMesh []).map (fun s => (s.count, s.ereg, s.nreg)) =
      some ([2, 2, 1], [[0, 1], [0, 1], [1, 0]], [[0, 2], [1, 1], [0, 0]]) ∧
    (meshCellsAtNodesRaw (fun t => ⟨t.flatten, indptrOf (t.map List.length)⟩) triBlockMesh []).isSome = false := by decide +kernel

end PM
