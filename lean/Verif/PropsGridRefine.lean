import Verif.PropsGridNeigh
import Verif.PropsElevate

/-!
# C107: grids, refined and elevated

Grids with quadratic cells (`gridH27`, `gridQ9`) against grids with linear cells: cutting their cells (`H27_to_H8`, `Q9_to_Q4`) gives the grid
with twice as many cells in each direction, and elevating the linear grid with as many cells (`H8_to_H27`, `Q4_to_Q9`) gives the quadratic one.
-/

set_option linter.unusedSectionVars false
set_option linter.unusedVariables false

namespace PM

/-! ## lattices -/

/-- Half steps from the beginning of the cell, for a local coordinate of -1, 0, 1 (stored twice as large). -/
def off (ξ : Int) : Nat := ((ξ + 2) / 2).toNat

/-- The node with local coordinates `v` of the cell `p`, in the lattice with half the step. -/
def dbl (p : Nat × Nat × Nat) (v : V3 Int) : Nat × Nat × Nat := (2 * p.1 + off v.x, 2 * p.2.1 + off v.y, 2 * p.2.2 + off v.z)

/-- The eight halves of a cell, in the order of `H27_to_H8`. -/
def octants (p : Nat × Nat × Nat) : List (Nat × Nat × Nat) :=
  [(2 * p.1, 2 * p.2.1, 2 * p.2.2), (2 * p.1 + 1, 2 * p.2.1, 2 * p.2.2), (2 * p.1 + 1, 2 * p.2.1 + 1, 2 * p.2.2), (2 * p.1, 2 * p.2.1 + 1, 2 * p.2.2),
   (2 * p.1, 2 * p.2.1, 2 * p.2.2 + 1), (2 * p.1 + 1, 2 * p.2.1, 2 * p.2.2 + 1), (2 * p.1 + 1, 2 * p.2.1 + 1, 2 * p.2.2 + 1), (2 * p.1, 2 * p.2.1 + 1, 2 * p.2.2 + 1)]

theorem mem_octants {p q : Nat × Nat × Nat} : q ∈ octants p ↔ q.1 / 2 = p.1 ∧ q.2.1 / 2 = p.2.1 ∧ q.2.2 / 2 = p.2.2 := by
  obtain ⟨i, j, k⟩ := p
  obtain ⟨x, y, z⟩ := q
  simp only [octants, List.mem_cons, Prod.mk.injEq, List.not_mem_nil, or_false]
  omega

theorem octants_perm (a b c : Nat) : ((latCells a b c).flatMap octants).Perm (latCells (2 * a) (2 * b) (2 * c)) := by
  rw [List.perm_ext_iff_of_nodup _ (latCells_nodup _ _ _)]
  · intro q
    simp only [List.mem_flatMap, mem_latCells, mem_octants]
    constructor
    · rintro ⟨p, hp, h⟩
      omega
    · intro h
      exact ⟨(q.1 / 2, q.2.1 / 2, q.2.2 / 2), by dsimp only; omega, by simp⟩
  · rw [List.nodup_flatMap]
    constructor
    · rintro ⟨i, j, k⟩ _
      simp [octants]
    · refine (latCells_nodup a b c).imp fun {p q} hpq => ?_
      rw [Function.onFun, List.disjoint_left]
      intro r h1 h2
      rw [mem_octants] at h1 h2
      exact hpq (Prod.ext (h1.1.symm.trans h2.1) (Prod.ext (h1.2.1.symm.trans h2.2.1) (h1.2.2.symm.trans h2.2.2)))

section
variable {K : Type} [Field K] [CharZero K]

/-- The topology of `gridH27` in closed form. -/
theorem hexTopo27 (ax ay az : Axis K) (hx : ax.N = 3) (hy : ay.N = 3) (hz : az.N = 3) {T : List (List Int)}
    (h : transformTopology (addStart 0 (gridTopo [ax, ay, az])) [pathH27] pathH27.length 0 = some T) :
    asTopo T = (latCells ax.n ay.n az.n).map fun p => lcH27.map fun v => latNo (2 * ay.n) (2 * az.n) (dbl p v) := by
  have hp : ∀ q ∈ pathH27, q < ([ax, ay, az].map fun a => a.N).prod := by simp [hx, hy, hz, pathH27]
  have e := transformResult_eq (pathOK_grid [ax, ay, az] 0 hp) (0 : Int) fun _ => mem_transformWrites
  rw [show transformTopology (addStart 0 (gridTopo [ax, ay, az])) [pathH27] pathH27.length 0 = _ from e] at h
  obtain rfl := Option.some.inj h
  simp only [gridTopo, List.map_cons, List.map_nil, gridL3, hx, hy, hz]
  simp only [asTopo, transformed, addStart, List.flatMap_map, List.map_cons, List.map_nil, ← List.map_eq_flatMap, List.map_map]
  apply List.map_congr_left
  rintro ⟨i, j, k⟩ _
  have key : ∀ (z : Int) (m : Nat), z = m → z.toNat = m := fun z m h => by omega
  simp only [Function.comp_def, latCells, pathH27, lcH27, lcH8, dbl, off, latNo, Axis.no, gridNo, lexNo, hx, hy, hz, Axis.pts, List.range_succ, List.range_zero]
  simp
  repeat' apply And.intro
  all_goals (apply key; push_cast; ring)

omit [CharZero K] in
theorem transformed_lat27 (a b c : Nat) :
    transformed ((latCells a b c).map fun p => lcH27.map fun v => latNo (2 * b) (2 * c) (dbl p v)) pathH27H8 0 =
      ((latCells a b c).flatMap octants).map fun p => (latCell p.1 p.2.1 p.2.2).map (latNo (2 * b) (2 * c)) := by
  rw [transformed, List.flatMap_map, List.map_flatMap]
  congr 1

/-- `a'` has a point at every point of `a`, an axis with three points per interval. -/
structure Halves (a a' : Axis K) : Prop where
  N : a.N = 3
  N' : a'.N = 2
  n : a'.n = 2 * a.n
  val : ∀ x, x ≤ 2 * a.n → a.val x = a'.val x

theorem halves_uni (l : K) {n : Nat} (s : K) (hn : 1 ≤ n) : Halves (uniAxis l n 3 s) (uniAxis l (2 * n) 2 s) := by
  refine ⟨rfl, rfl, rfl, fun x _ => ?_⟩
  rw [uni_val l s hn (by omega), uni_val l s (by omega) le_rfl]
  have : (n : K) ≠ 0 := by exact_mod_cast (by omega : n ≠ 0)
  push_cast
  field_simp

/-- Specification: between any two neighbouring values of `b`, `b'` has their mean. -/
def HalvedBins (b b' : List K) : Prop :=
  b'.length = 2 * b.length - 1 ∧ (∀ (i : Nat) (v : K), b[i]? = some v → b'[2 * i]? = some v) ∧
  ∀ (i : Nat) (v w : K), b[i]? = some v → b[i + 1]? = some w → b'[2 * i + 1]? = some ((v + w) / 2)

theorem halves_bins {b b' : List K} (s : K) (hb : 2 ≤ b.length) (h : HalvedBins b b') : Halves (binAxis b 3 s) (binAxis b' 2 s) := by
  obtain ⟨h1, h2, h3⟩ := h
  refine ⟨rfl, rfl, by simp only [binAxis]; omega, fun x hx => ?_⟩
  simp only [binAxis] at hx
  have hl : x / 2 < b.length := by omega
  simp only [Axis.val, Axis.pos, binAxis, Nat.add_one_sub_one, Nat.div_one, Nat.mod_one, Nat.cast_zero]
  rcases Nat.mod_two_eq_zero_or_one x with e | e
  · have := h2 (x / 2) _ (List.getElem?_eq_getElem hl)
    rw [show 2 * (x / 2) = x by omega] at this
    rw [e, List.getD_eq_getElem?_getD (l := b'), this, List.getD_eq_getElem?_getD, List.getElem?_eq_getElem hl]
    simp
  · have hl' : x / 2 + 1 < b.length := by omega
    have := h3 (x / 2) _ _ (List.getElem?_eq_getElem hl) (List.getElem?_eq_getElem hl')
    rw [show 2 * (x / 2) + 1 = x by omega] at this
    rw [e, List.getD_eq_getElem?_getD (l := b'), this, List.getD_eq_getElem?_getD, List.getElem?_eq_getElem hl,
      List.getD_eq_getElem?_getD, List.getElem?_eq_getElem hl']
    simp only [Option.getD_some]
    push_cast
    ring

theorem halves_coords {ax ay az ax' ay' az' : Axis K} (hx : Halves ax ax') (hy : Halves ay ay') (hz : Halves az az') :
    gridCoords [ax, ay, az] = gridCoords [ax', ay', az'] := by
  simp only [gridCoords, List.map_cons, List.map_nil, gridL3, Axis.pts, hx.N, hx.N', hx.n, hy.N, hy.N', hy.n, hz.N, hz.N', hz.n]
  have e : ∀ n : Nat, n * (3 - 1) + 1 = 2 * n * (2 - 1) + 1 := fun n => by omega
  rw [e, e, e]
  apply List.map_congr_left
  rintro ⟨x, y, z⟩ hp
  rw [mem_latCells] at hp
  simp only [gridVal] at hp ⊢
  rw [hx.val x (by omega), hy.val y (by omega), hz.val z (by omega)]

theorem halves_topo {ax ay az ax' ay' az' : Axis K} (hx : Halves ax ax') (hy : Halves ay ay') (hz : Halves az az') {T T' : List (List Int)}
    (h : transformTopology (addStart 0 (gridTopo [ax, ay, az])) [pathH27] pathH27.length 0 = some T)
    (h' : transformTopology (addStart 0 (gridTopo [ax', ay', az'])) [pathH8] pathH8.length 0 = some T') :
    ∃ F, transformTopology (asTopo T) pathH27H8 8 0 = some F ∧ F.Perm (asTopo T') := by
  rw [hexTopo27 ax ay az hx.N hy.N hz.N h, hexTopo ax' ay' az' hx.N' hy.N' hz.N' h', hx.n, hy.n, hz.n]
  refine ⟨_, transformTopology_eq (pathOK_of_width (w := 27) ?_ (by decide)), ?_⟩
  · intro r hr
    obtain ⟨p, _, rfl⟩ := List.mem_map.1 hr
    rfl
  · rw [transformed_lat27]
    exact (octants_perm _ _ _).map _

/-! ## elevation -/

/-- The nodes of the corner, edge, face or cell that a node of a cell with 27 nodes belongs to. -/
def ent27 : List (List Nat) := [[0], [1], [2], [3], [4], [5], [6], [7],
  [0, 1], [1, 2], [2, 3], [3, 0], [4, 5], [5, 6], [6, 7], [7, 4], [0, 4], [1, 5], [2, 6], [3, 7],
  [0, 4, 7, 3], [1, 2, 6, 5], [0, 1, 5, 4], [2, 3, 7, 6], [0, 3, 2, 1], [4, 5, 6, 7], [0, 1, 2, 3, 4, 5, 6, 7]]

/-- At most half a step away. -/
def Near (q D : Nat × Nat × Nat) : Prop :=
  (D.1 ≤ 2 * q.1 + 1 ∧ 2 * q.1 ≤ D.1 + 1) ∧ (D.2.1 ≤ 2 * q.2.1 + 1 ∧ 2 * q.2.1 ≤ D.2.1 + 1) ∧ (D.2.2 ≤ 2 * q.2.2 + 1 ∧ 2 * q.2.2 ≤ D.2.2 + 1)

theorem near_ext {D D' : Nat × Nat × Nat} (h : ∀ q, Near q D ↔ Near q D') : D = D' := by
  obtain ⟨a, b, c⟩ := D
  obtain ⟨a', b', c'⟩ := D'
  have h1 := h (a / 2, b / 2, c / 2)
  have h2 := h ((a + 1) / 2, (b + 1) / 2, (c + 1) / 2)
  have h3 := h (a' / 2, b' / 2, c' / 2)
  have h4 := h ((a' + 1) / 2, (b' + 1) / 2, (c' + 1) / 2)
  simp only [Near, Prod.mk.injEq] at *
  refine ⟨?_, ?_, ?_⟩ <;> omega

/-- The points of the lattice of the corners that `ent27` selects. -/
def latEnt (p : Nat × Nat × Nat) (n : Nat) : List (Nat × Nat × Nat) :=
  (ent27.getD n []).map fun m => (latCell p.1 p.2.1 p.2.2).getD m (0, 0, 0)

theorem mem_latEnt {n : Nat} (hn : n < 27) (p q : Nat × Nat × Nat) : q ∈ latEnt p n ↔ Near q (dbl p (lcH27.getD n 0)) := by
  obtain ⟨i, j, k⟩ := p
  obtain ⟨x, y, z⟩ := q
  interval_cases n <;> simp [latEnt, ent27, latCell, Near, dbl, off, lcH27, lcH8] <;> omega

theorem latEnt_nodup {n : Nat} (hn : n < 27) (p : Nat × Nat × Nat) : (latEnt p n).Nodup := by
  obtain ⟨i, j, k⟩ := p
  interval_cases n <;> simp [latEnt, ent27, latCell]

theorem latEnt_perm {n n' : Nat} (hn : n < 27) (hn' : n' < 27) (p p' : Nat × Nat × Nat) :
    (latEnt p n).Perm (latEnt p' n') ↔ dbl p (lcH27.getD n 0) = dbl p' (lcH27.getD n' 0) := by
  rw [List.perm_ext_iff_of_nodup (latEnt_nodup hn p) (latEnt_nodup hn' p')]
  simp only [mem_latEnt hn, mem_latEnt hn']
  exact ⟨near_ext, fun h q => by rw [h]⟩

theorem nodeAt_row {α : Type} {t : List (List α)} {i : Nat} {row : List α} (h : t[i]? = some row) (j : Nat) : nodeAt t i j = row[j]? := by
  simp [nodeAt, h]

/-- Two nodes of an elevated mesh are the same iff they belong to the same corner, edge, face or cell. -/
theorem sameNode27 {coords c : List (V3 K)} {topo t : Topo} (hm : MeshOK coords topo 8)
    (ok : ElevatedMesh coords topo lcH8
        [[[0, 1], [1, 2], [2, 3], [3, 0], [4, 5], [5, 6], [6, 7], [7, 4], [0, 4], [1, 5], [2, 6], [3, 7]],
         [[0, 4, 7, 3], [1, 2, 6, 5], [0, 1, 5, 4], [2, 3, 7, 6], [0, 3, 2, 1], [4, 5, 6, 7]]] lcH27 c t)
    (oc : Centred coords topo 26 c t) {I I' n n' : Nat} {cell cell' : List Nat} (hI : topo[I]? = some cell) (hI' : topo[I']? = some cell')
    (hn : n < 27) (hn' : n' < 27) (hc : cell.Perm cell' → I = I') :
    nodeAt t I n = nodeAt t I' n' ↔ ((ent27.getD n []).map fun q => cell.getD q 0).Perm ((ent27.getD n' []).map fun q => cell'.getD q 0) := by
  have hcorner : ∀ {I n : Nat} {cell : List Nat}, topo[I]? = some cell → n < 8 → nodeAt t I n = some (cell.getD n 0) ∧ cell.getD n 0 < coords.length ∧
      (ent27.getD n []) = [n] := by
    intro I n cell hI hn
    have hl := hm.len cell (List.mem_of_getElem? hI)
    have hln : n < cell.length := by omega
    refine ⟨?_, ?_, ?_⟩
    · rw [ok.elevated.corners I n hn, nodeAt_row hI, List.getD_eq_getElem?_getD, List.getElem?_eq_getElem hln]; rfl
    · rw [List.getD_eq_getElem?_getD, List.getElem?_eq_getElem hln]
      exact hm.lt cell (List.mem_of_getElem? hI) _ (List.getElem_mem hln)
    · interval_cases n <;> rfl
  have hnew : ∀ {I n : Nat} {cell : List Nat}, topo[I]? = some cell → 8 ≤ n → n < 27 → ∃ m, coords.length ≤ m ∧ nodeAt t I n = some m := by
    intro I n cell hI h1 h2
    rcases Nat.lt_or_ge n 20 with h | h
    · obtain ⟨m, m1, m2, _⟩ := ok.elevated.place 0 (n - 8) I _ cell rfl (by simp; omega) hI
      exact ⟨m, m1, by rw [← m2]; congr 1; simp [lcH8]; omega⟩
    rcases Nat.lt_or_ge n 26 with h' | h'
    · obtain ⟨m, m1, m2, _⟩ := ok.elevated.place 1 (n - 20) I _ cell rfl (by simp; omega) hI
      exact ⟨m, m1, by rw [← m2]; congr 1; simp [lcH8]; omega⟩
    · obtain ⟨m, m1, m2, _⟩ := oc I cell hI
      exact ⟨m, m1, by rw [show n = 26 by omega]; exact m2⟩
  have hcentre : ∀ {I I' n' : Nat} {cell cell' : List Nat}, topo[I]? = some cell → nodeAt t I 26 = nodeAt t I' n' → I' = I ∧ n' = 26 := by
    intro I I' n' cell cell' hI e
    obtain ⟨m, _, m2, _, m4⟩ := oc I cell hI
    exact m4 I' n' (by rw [← e, m2])
  have hsize : ∀ n < 27, (ent27.getD n []).length = if n < 8 then 1 else if n < 20 then 2 else if n < 26 then 4 else 8 := by decide
  have hs := hsize n hn
  have hs' := hsize n' hn'
  have hpl : ((ent27.getD n []).map fun q => cell.getD q 0).Perm ((ent27.getD n' []).map fun q => cell'.getD q 0) →
      (ent27.getD n []).length = (ent27.getD n' []).length := fun h => by simpa using h.length_eq
  have hlen := hm.len cell (List.mem_of_getElem? hI)
  have hlen' := hm.len cell' (List.mem_of_getElem? hI')
  have hE : ∀ e < 12, ent27.getD (8 + e) [] = [[0, 1], [1, 2], [2, 3], [3, 0], [4, 5], [5, 6], [6, 7], [7, 4], [0, 4], [1, 5], [2, 6], [3, 7]].getD e [] := by decide
  have hF : ∀ e < 6, ent27.getD (20 + e) [] = [[0, 4, 7, 3], [1, 2, 6, 5], [0, 1, 5, 4], [2, 3, 7, 6], [0, 3, 2, 1], [4, 5, 6, 7]].getD e [] := by decide
  have hall : ∀ {cell : List Nat}, cell.length = 8 → ((ent27.getD 26 []).map fun q => cell.getD q 0) = cell := by
    intro cell h
    match cell, h with
    | [_, _, _, _, _, _, _, _], _ => rfl
  rcases Nat.lt_or_ge n 8 with h8 | h8
  · obtain ⟨c1, c2, c3⟩ := hcorner hI h8
    rcases Nat.lt_or_ge n' 8 with h8' | h8'
    · obtain ⟨d1, d2, d3⟩ := hcorner hI' h8'
      rw [c1, d1, c3, d3]
      simp
    · obtain ⟨m, m1, m2⟩ := hnew hI' h8' hn'
      refine ⟨fun e => ?_, fun e => ?_⟩
      · rw [c1, m2, Option.some.injEq] at e; omega
      · have := hpl e; split_ifs at hs hs' <;> omega
  rcases Nat.lt_or_ge n' 8 with h8' | h8'
  · obtain ⟨d1, d2, d3⟩ := hcorner hI' h8'
    obtain ⟨m, m1, m2⟩ := hnew hI h8 hn
    refine ⟨fun e => ?_, fun e => ?_⟩
    · rw [d1, m2, Option.some.injEq] at e; omega
    · have := hpl e; split_ifs at hs hs' <;> omega
  by_cases h26 : n = 26
  · subst h26
    refine ⟨fun e => ?_, fun e => ?_⟩
    · obtain ⟨rfl, rfl⟩ := hcentre (cell' := cell') hI e
      rw [hI] at hI'
      obtain rfl := Option.some.inj hI'
      exact .refl _
    · have h' : n' = 26 := by have := hpl e; split_ifs at hs hs' <;> omega
      subst h'
      rw [hall hlen, hall hlen'] at e
      rw [hc e]
  by_cases h26' : n' = 26
  · subst h26'
    refine ⟨fun e => ?_, fun e => ?_⟩
    · exact absurd (hcentre (cell' := cell) hI' e.symm).2 h26
    · have := hpl e; split_ifs at hs hs' <;> omega
  rcases Nat.lt_or_ge n 20 with h20 | h20
  · obtain ⟨e, rfl⟩ := Nat.exists_eq_add_of_le h8
    rcases Nat.lt_or_ge n' 20 with h20' | h20'
    · obtain ⟨e', rfl⟩ := Nat.exists_eq_add_of_le h8'
      have := ok.elevated.conform 0 e I 0 e' I' _ _ cell cell' rfl (by simp; omega) hI rfl (by simp; omega) hI'
      rw [hE e (by omega), hE e' (by omega)]
      exact this.trans (and_iff_right rfl)
    · obtain ⟨e', rfl⟩ := Nat.exists_eq_add_of_le h20'
      have := ok.elevated.conform 0 e I 1 e' I' _ _ cell cell' rfl (by simp; omega) hI rfl (by simp; omega) hI'
      refine ⟨fun e => ?_, fun e => ?_⟩
      · exact absurd (this.1 e).1 (by decide)
      · have := hpl e; split_ifs at hs hs' <;> omega
  · obtain ⟨e, rfl⟩ := Nat.exists_eq_add_of_le h20
    rcases Nat.lt_or_ge n' 20 with h20' | h20'
    · obtain ⟨e', rfl⟩ := Nat.exists_eq_add_of_le h8'
      have := ok.elevated.conform 1 e I 0 e' I' _ _ cell cell' rfl (by simp; omega) hI rfl (by simp; omega) hI'
      refine ⟨fun e => ?_, fun e => ?_⟩
      · exact absurd (this.1 e).1 (by decide)
      · have := hpl e; split_ifs at hs hs' <;> omega
    · obtain ⟨e', rfl⟩ := Nat.exists_eq_add_of_le h20'
      have := ok.elevated.conform 1 e I 1 e' I' _ _ cell cell' rfl (by simp; omega) hI rfl (by simp; omega) hI'
      rw [hF e (by omega), hF e' (by omega)]
      exact this.trans (and_iff_right rfl)

/-- Specification: the same cells, node by node at the same places, with the points numbered otherwise. -/
def Renumbered (c : List (V3 K)) (t : Topo) (c' : List (V3 K)) (t' : Topo) : Prop :=
  c.length = c'.length ∧ ∃ σ : Nat → Nat, (∀ m, m < c.length → σ m < c'.length ∧ c'[σ m]? = c[m]?) ∧
    (∀ m m', m < c.length → m' < c.length → σ m = σ m' → m = m') ∧ t' = t.map (List.map σ)

theorem renumbered_of {c c' : List (V3 K)} {t t' : Topo} {w : Nat} (hl : t.length = t'.length) (hw : ∀ r ∈ t, r.length = w) (hw' : ∀ r ∈ t', r.length = w)
    (hs : ∀ I n I' n', I < t.length → I' < t.length → n < w → n' < w → (nodeAt t I n = nodeAt t I' n' ↔ nodeAt t' I n = nodeAt t' I' n'))
    (hr : ∀ I n m, nodeAt t I n = some m → m < c.length) (hr' : ∀ I n m, nodeAt t' I n = some m → m < c'.length)
    (hu : ∀ m, m < c.length → ∃ I n, nodeAt t I n = some m) (hu' : ∀ m, m < c'.length → ∃ I n, nodeAt t' I n = some m)
    (hp : ∀ I n m m', nodeAt t I n = some m → nodeAt t' I n = some m' → c'[m']? = c[m]?) : Renumbered c t c' t' := by
  have hin : ∀ {t : Topo}, (∀ r ∈ t, r.length = w) → ∀ {I n m : Nat}, nodeAt t I n = some m → I < t.length ∧ n < w := by
    intro t hw I n m h
    have hI := nodeAt_lt h
    refine ⟨hI, ?_⟩
    rw [nodeAt_row (List.getElem?_eq_getElem hI)] at h
    rw [← hw _ (List.getElem_mem hI)]
    exact (List.getElem?_eq_some_iff.1 h).1
  have hsome : ∀ {t : Topo}, (∀ r ∈ t, r.length = w) → ∀ {I n : Nat}, I < t.length → n < w → ∃ m, nodeAt t I n = some m := by
    intro t hw I n hI hn
    rw [nodeAt_row (List.getElem?_eq_getElem hI)]
    exact ⟨_, List.getElem?_eq_getElem (by rw [hw _ (List.getElem_mem hI)]; exact hn)⟩
  have key : ∀ m, ∃ s, m < c.length → ∀ I n, nodeAt t I n = some m → nodeAt t' I n = some s := by
    intro m
    by_cases hm : m < c.length
    · obtain ⟨I0, n0, h0⟩ := hu m hm
      obtain ⟨a1, a2⟩ := hin hw h0
      obtain ⟨s, hs0⟩ := hsome hw' (hl ▸ a1) a2
      refine ⟨s, fun _ I n h => ?_⟩
      obtain ⟨b1, b2⟩ := hin hw h
      rw [← hs0]
      exact (hs I n I0 n0 b1 a1 b2 a2).1 (h.trans h0.symm)
    · exact ⟨0, fun h => absurd h hm⟩
  choose σ hσ using key
  have hinj : ∀ m m', m < c.length → m' < c.length → σ m = σ m' → m = m' := by
    intro m m' hm hm' e
    obtain ⟨I, n, h⟩ := hu m hm
    obtain ⟨I', n', h'⟩ := hu m' hm'
    obtain ⟨a1, a2⟩ := hin hw h
    obtain ⟨b1, b2⟩ := hin hw h'
    have := (hs I n I' n' a1 b1 a2 b2).2 (by rw [hσ m hm I n h, hσ m' hm' I' n' h', e])
    rw [h, h'] at this
    exact Option.some.inj this
  have hlt : ∀ m, m < c.length → σ m < c'.length := by
    intro m hm
    obtain ⟨I, n, h⟩ := hu m hm
    exact hr' I n _ (hσ m hm I n h)
  refine ⟨?_, σ, fun m hm => ⟨hlt m hm, ?_⟩, hinj, ?_⟩
  · have n1 : ((List.range c.length).map σ).Nodup := by
      rw [List.nodup_map_iff_inj_on List.nodup_range]
      intro x hx y hy e
      exact hinj x y (List.mem_range.1 hx) (List.mem_range.1 hy) e
    have h1 : ((List.range c.length).map σ).length ≤ (List.range c'.length).length :=
      (List.subperm_of_subset n1 fun s hs => by
        obtain ⟨m, hm, rfl⟩ := List.mem_map.1 hs
        exact List.mem_range.2 (hlt m (List.mem_range.1 hm))).length_le
    have h2 : (List.range c'.length).length ≤ ((List.range c.length).map σ).length :=
      (List.subperm_of_subset List.nodup_range fun s hs => by
        obtain ⟨I, n, h⟩ := hu' s (List.mem_range.1 hs)
        obtain ⟨a1, a2⟩ := hin hw' h
        obtain ⟨m, hm⟩ := hsome hw (hl.symm ▸ a1) a2
        have := hσ m (hr I n m hm) I n hm
        rw [h, Option.some.injEq] at this
        exact List.mem_map.2 ⟨m, List.mem_range.2 (hr I n m hm), this.symm⟩).length_le
    simp only [List.length_map, List.length_range] at h1 h2
    omega
  · obtain ⟨I, n, h⟩ := hu m hm
    exact hp I n m _ h (hσ m hm I n h)
  · apply List.ext_getElem (by simp [hl])
    intro I h1 h2
    rw [List.length_map] at h2
    rw [List.getElem_map]
    apply List.ext_getElem
    · rw [List.length_map, hw' _ (List.getElem_mem h1), hw _ (List.getElem_mem h2)]
    · intro n h3 h4
      rw [List.length_map] at h4
      have e1 : nodeAt t I n = some (t[I][n]) := by rw [nodeAt_row (List.getElem?_eq_getElem h2), List.getElem?_eq_getElem h4]
      have e2 : nodeAt t' I n = some (t'[I][n]) := by rw [nodeAt_row (List.getElem?_eq_getElem h1), List.getElem?_eq_getElem h3]
      have := hσ _ (hr I n _ e1) I n e1
      rw [e2, Option.some.injEq] at this
      rw [this, List.getElem_map]

theorem perm_map_inj {α β : Type} {f : α → β} {l l' : List α} (h : l.Nodup) (h' : l'.Nodup)
    (hf : ∀ x y, x ∈ l ∨ x ∈ l' → y ∈ l ∨ y ∈ l' → f x = f y → x = y) : (l.map f).Perm (l'.map f) ↔ l.Perm l' := by
  refine ⟨fun e => ?_, fun e => e.map f⟩
  rw [List.perm_ext_iff_of_nodup h h']
  intro x
  constructor
  · intro hx
    obtain ⟨y, hy, e'⟩ := List.mem_map.1 (e.mem_iff.1 (List.mem_map_of_mem (f := f) hx))
    rw [← hf y x (.inr hy) (.inl hx) e']
    exact hy
  · intro hx
    obtain ⟨y, hy, e'⟩ := List.mem_map.1 (e.mem_iff.2 (List.mem_map_of_mem (f := f) hx))
    rw [← hf y x (.inl hy) (.inr hx) e']
    exact hy

theorem surj27 {a b c : Nat} (h : 1 ≤ a ∧ 1 ≤ b ∧ 1 ≤ c) {D : Nat × Nat × Nat} (hD : InLat (2 * a) (2 * b) (2 * c) D) :
    ∃ p ∈ latCells a b c, ∃ n < 27, dbl p (lcH27.getD n 0) = D := by
  obtain ⟨x, y, z⟩ := D
  obtain ⟨h1, h2, h3⟩ := hD
  simp only at h1 h2 h3
  have hax : ∀ {a x : Nat}, 1 ≤ a → x ≤ 2 * a → ∃ p o, p < a ∧ o < 3 ∧ x = 2 * p + o := by
    intro a x ha hx
    by_cases e : x = 2 * a
    · exact ⟨a - 1, 2, by omega, by omega, by omega⟩
    · exact ⟨x / 2, x % 2, by omega, by omega, by omega⟩
  obtain ⟨p1, o1, q1, r1, rfl⟩ := hax h.1 h1
  obtain ⟨p2, o2, q2, r2, rfl⟩ := hax h.2.1 h2
  obtain ⟨p3, o3, q3, r3, rfl⟩ := hax h.2.2 h3
  have tab : ∀ o1 < 3, ∀ o2 < 3, ∀ o3 < 3, ∃ n < 27, off (lcH27.getD n 0).x = o1 ∧ off (lcH27.getD n 0).y = o2 ∧ off (lcH27.getD n 0).z = o3 := by
    decide +kernel
  obtain ⟨n, hn, e1, e2, e3⟩ := tab o1 r1 o2 r2 o3 r3
  exact ⟨(p1, p2, p3), mem_latCells.2 ⟨q1, q2, q3⟩, n, hn, by simp only [dbl, e1, e2, e3]⟩

theorem off_lt : ∀ n < 27, off (lcH27.getD n 0).x ≤ 2 ∧ off (lcH27.getD n 0).y ≤ 2 ∧ off (lcH27.getD n 0).z ≤ 2 := by decide +kernel

theorem dbl_in {a b c : Nat} {p : Nat × Nat × Nat} (hp : p ∈ latCells a b c) {n : Nat} (hn : n < 27) :
    InLat (2 * a) (2 * b) (2 * c) (dbl p (lcH27.getD n 0)) := by
  have := off_lt n hn
  rw [mem_latCells] at hp
  simp only [InLat, dbl]
  omega

/-- Elevating a linear grid gives the quadratic one. -/
theorem elevate_grid27 {ax ay az ax' ay' az' : Axis K} (hx : ax.N = 3) (hy : ay.N = 3) (hz : az.N = 3) (hx' : ax' = ⟨ax.n, 2, ax.b⟩)
    (hy' : ay' = ⟨ay.n, 2, ay.b⟩) (hz' : az' = ⟨az.n, 2, az.b⟩) (h : 1 ≤ ax.n ∧ 1 ≤ ay.n ∧ 1 ≤ az.n) {T T' : List (List Int)}
    (hT : transformTopology (addStart 0 (gridTopo [ax, ay, az])) [pathH27] pathH27.length 0 = some T)
    (hT' : transformTopology (addStart 0 (gridTopo [ax', ay', az'])) [pathH8] pathH8.length 0 = some T')
    (hV : VtkGrid3 lcH27 ax ay az 0 (gridCoords [ax, ay, az]) T) (hV' : VtkGrid3 lcH8 ax' ay' az' 0 (gridCoords [ax', ay', az']) T') :
    ∃ c t, h8ToH27 ((gridCoords [ax', ay', az']).map rowPt) (asTopo T') = some (c, t) ∧
      Renumbered c t ((gridCoords [ax, ay, az]).map rowPt) (asTopo T) := by
  have nx' : ax'.n = ax.n := by rw [hx']
  have ny' : ay'.n = ay.n := by rw [hy']
  have nz' : az'.n = az.n := by rw [hz']
  have bx' : ax'.b = ax.b := by rw [hx']
  have by' : ay'.b = ay.b := by rw [hy']
  have bz' : az'.b = az.b := by rw [hz']
  have e27 := hexTopo27 ax ay az hx hy hz hT
  have e8 := hexTopo ax' ay' az' (by rw [hx']) (by rw [hy']) (by rw [hz']) hT'
  rw [nx', ny', nz'] at e8
  have hlC : ((gridCoords [ax, ay, az]).map rowPt).length = (2 * ax.n + 1) * (2 * ay.n + 1) * (2 * az.n + 1) := by
    rw [List.length_map, gridCoords, length_gridL]
    simp only [List.map_cons, List.map_nil, Axis.pts, hx, hy, hz, List.prod_cons, List.prod_nil]
    ring
  have hlC' : ((gridCoords [ax', ay', az']).map rowPt).length = (ax.n + 1) * (ay.n + 1) * (az.n + 1) := by
    rw [List.length_map, gridCoords, length_gridL]
    simp only [List.map_cons, List.map_nil, Axis.pts, hx', hy', hz', List.prod_cons, List.prod_nil]
    ring
  have idx := lattice_indexed h
  have hcell : ∀ {I : Nat}, I < (asTopo T').length → ∃ p ∈ latCells ax.n ay.n az.n, I = (p.1 * ay.n + p.2.1) * az.n + p.2.2 ∧
      (asTopo T')[I]? = some ((latCell p.1 p.2.1 p.2.2).map (latNo ay.n az.n)) ∧
      (asTopo T)[I]? = some (lcH27.map fun v => latNo (2 * ay.n) (2 * az.n) (dbl p v)) := by
    intro I hI
    rw [e8, List.length_map] at hI
    have := latCells_lookup.1 (List.getElem?_eq_getElem hI)
    refine ⟨(latCells ax.n ay.n az.n)[I], List.getElem_mem hI, this.2, ?_, ?_⟩
    · rw [e8, List.getElem?_map, List.getElem?_eq_getElem hI]; rfl
    · rw [e27, List.getElem?_map, List.getElem?_eq_getElem hI]; rfl
  have hm : MeshOK ((gridCoords [ax', ay', az']).map rowPt) (asTopo T') 8 := by
    constructor
    · intro r hr
      rw [e8] at hr
      obtain ⟨p, _, rfl⟩ := List.mem_map.1 hr
      rfl
    · intro r hr x hx
      rw [e8] at hr
      obtain ⟨p, hp, rfl⟩ := List.mem_map.1 hr
      obtain ⟨q, hq, rfl⟩ := List.mem_map.1 hx
      rw [hlC']
      exact idx.lt q (idx.inside p hp q hq)
  obtain ⟨c, t, e, ok, oc⟩ := C12_H8_to_H27 _ _ hm
  refine ⟨c, t, e, ?_⟩
  have hlt : t.length = (asTopo T').length := ok.elevated.cells
  have hw : ∀ r ∈ t, r.length = 27 := ok.width
  have hw' : ∀ r ∈ asTopo T, r.length = 27 := by
    intro r hr
    rw [e27] at hr
    obtain ⟨p, _, rfl⟩ := List.mem_map.1 hr
    rfl
  have hn27 : ∀ {I n : Nat} {p : Nat × Nat × Nat}, (asTopo T)[I]? = some (lcH27.map fun v => latNo (2 * ay.n) (2 * az.n) (dbl p v)) → n < 27 →
      nodeAt (asTopo T) I n = some (latNo (2 * ay.n) (2 * az.n) (dbl p (lcH27.getD n 0))) := by
    intro I n p hI hn
    have hn' : n < lcH27.length := hn
    rw [nodeAt_row hI, List.getElem?_map, List.getElem?_eq_getElem hn', List.getD_eq_getElem?_getD, List.getElem?_eq_getElem hn']
    rfl
  refine renumbered_of (w := 27) (by rw [hlt, e8, e27]; simp) hw hw' ?_ ok.inRange ?_ ?_ ?_ ?_
  · -- the same nodes
    intro I n I' n' hI hI' hn hn'
    rw [hlt] at hI hI'
    obtain ⟨p, hp, i1, i2, i3⟩ := hcell hI
    obtain ⟨p', hp', j1, j2, j3⟩ := hcell hI'
    rw [hn27 i3 hn, hn27 j3 hn', Option.some.injEq]
    have hE : ∀ {p : Nat × Nat × Nat} {n : Nat}, n < 27 → ((ent27.getD n []).map fun q => ((latCell p.1 p.2.1 p.2.2).map (latNo ay.n az.n)).getD q 0) =
        (latEnt p n).map (latNo ay.n az.n) := by
      intro p n hn
      rw [latEnt, List.map_map]
      apply List.map_congr_left
      intro q hq
      have hq8 : q < (latCell p.1 p.2.1 p.2.2).length := (by decide : ∀ n < 27, ∀ q ∈ ent27.getD n [], q < 8) n hn q hq
      simp only [Function.comp_apply]
      rw [List.getD_eq_getElem?_getD, List.getElem?_map, List.getElem?_eq_getElem hq8, List.getD_eq_getElem?_getD, List.getElem?_eq_getElem hq8]
      rfl
    have hsub : ∀ {p q : Nat × Nat × Nat} {n : Nat}, p ∈ latCells ax.n ay.n az.n → n < 27 → q ∈ latEnt p n → InLat ax.n ay.n az.n q := by
      intro p q n hp hn hq
      obtain ⟨m, hm, rfl⟩ := List.mem_map.1 hq
      have hq8 : m < (latCell p.1 p.2.1 p.2.2).length := (by decide : ∀ n < 27, ∀ q ∈ ent27.getD n [], q < 8) n hn m hm
      apply idx.inside p hp
      rw [List.getD_eq_getElem?_getD, List.getElem?_eq_getElem hq8]
      exact List.getElem_mem hq8
    have hpm : ∀ {n n' : Nat}, n < 27 → n' < 27 → (((latEnt p n).map (latNo ay.n az.n)).Perm ((latEnt p' n').map (latNo ay.n az.n)) ↔
        dbl p (lcH27.getD n 0) = dbl p' (lcH27.getD n' 0)) := by
      intro n n' hn hn'
      rw [perm_map_inj (latEnt_nodup hn p) (latEnt_nodup hn' p'), latEnt_perm hn hn']
      rintro x y (h1 | h1) (h2 | h2) e
      · exact latNo_inj (hsub hp hn h1) (hsub hp hn h2) e
      · exact latNo_inj (hsub hp hn h1) (hsub hp' hn' h2) e
      · exact latNo_inj (hsub hp' hn' h1) (hsub hp hn h2) e
      · exact latNo_inj (hsub hp' hn' h1) (hsub hp' hn' h2) e
    rw [sameNode27 hm ok oc i2 j2 hn hn', hE hn, hE hn', hpm hn hn']
    · refine ⟨fun e => by rw [e], fun e => latNo_inj (dbl_in hp hn) (dbl_in hp' hn') e⟩
    · intro hperm
      have h26 := hE (p := p) (n := 26) (by omega)
      have h26' := hE (p := p') (n := 26) (by omega)
      have hself : ∀ p : Nat × Nat × Nat, latEnt p 26 = latCell p.1 p.2.1 p.2.2 := fun p => rfl
      have := (hpm (n := 26) (n' := 26) (by omega) (by omega)).1 (by rw [hself, hself]; exact hperm)
      have h0 : off (lcH27.getD 26 0).x = 1 ∧ off (lcH27.getD 26 0).y = 1 ∧ off (lcH27.getD 26 0).z = 1 := by decide +kernel
      simp only [dbl, h0, Prod.mk.injEq] at this
      rw [i1, j1, show p.1 = p'.1 by omega, show p.2.1 = p'.2.1 by omega, show p.2.2 = p'.2.2 by omega]
  · -- numbers in range
    intro I n m hm'
    have hI := nodeAt_lt hm'
    rw [show (asTopo T).length = (asTopo T').length by rw [e8, e27]; simp] at hI
    obtain ⟨p, hp, i1, i2, i3⟩ := hcell hI
    have hn : n < 27 := by
      rw [nodeAt_row i3] at hm'
      exact (List.getElem?_eq_some_iff.1 hm').1
    rw [hn27 i3 hn, Option.some.injEq] at hm'
    rw [← hm', hlC]
    exact latNo_lt (dbl_in hp hn)
  · -- points of the elevated mesh are used
    intro m hmc
    rcases Nat.lt_or_ge m ((gridCoords [ax', ay', az']).map rowPt).length with hlt' | hge
    · rw [hlC'] at hlt'
      obtain ⟨q, hq, rfl⟩ := idx.surj m hlt'
      obtain ⟨p, hp, hn⟩ := idx.used q hq
      have hqm := (idx.mem p hp q hq).2 hn
      obtain ⟨k, hk, rfl⟩ := List.mem_iff_getElem.1 hqm
      obtain ⟨I, hI, rfl⟩ := List.mem_iff_getElem.1 hp
      have hk8 : k < lcH8.length := hk
      refine ⟨I, k, ?_⟩
      rw [ok.elevated.corners I k hk8, e8, nodeAt_row (by rw [List.getElem?_map, List.getElem?_eq_getElem hI]; rfl), List.getElem?_map,
        List.getElem?_eq_getElem hk]
      rfl
    · exact ok.elevated.used m hge hmc
  · -- points of the quadratic grid are used
    intro m hmc
    rw [hlC] at hmc
    obtain ⟨D, hD, rfl⟩ := latNo_surj hmc
    obtain ⟨p, hp, n, hn, e⟩ := surj27 h hD
    obtain ⟨I, hI, rfl⟩ := List.mem_iff_getElem.1 hp
    refine ⟨I, n, ?_⟩
    rw [← e, hn27 _ hn]
    rw [e27, List.getElem?_map, List.getElem?_eq_getElem hI]
    rfl
  · -- places
    intro I n m m' h1 h2
    have hI := nodeAt_lt h1
    rw [hlt] at hI
    obtain ⟨p, hp, i1, i2, i3⟩ := hcell hI
    have hn : n < 27 := by
      rw [nodeAt_row i3] at h2
      exact (List.getElem?_eq_some_iff.1 h2).1
    rw [mem_latCells] at hp
    obtain ⟨node, v1, P, hP, v2⟩ := hV.2.2 p.1 p.2.1 p.2.2 n hp.1 hp.2.1 hp.2.2 hn
    have hmm : m' = node := by
      rw [asTopo, nodeAt_map', i1, v1] at h2
      simpa using h2.symm
    obtain ⟨mm, w1, w2⟩ := ok.ordered I _ (boxAff (ax.b p.1) (ax.b (p.1 + 1)) (ay.b p.2.1) (ay.b (p.2.1 + 1)) (az.b p.2.2) (az.b (p.2.2 + 1))) i2 (by
      intro q hq
      obtain ⟨node', v1', P', hP', v2'⟩ := hV'.2.2 p.1 p.2.1 p.2.2 q (by rw [nx']; exact hp.1) (by rw [ny']; exact hp.2.1) (by rw [nz']; exact hp.2.2) hq
      have : nodeAt (asTopo T') I q = some node' := by
        rw [asTopo, nodeAt_map', i1, ← ny', ← nz', v1']
        simp
      rw [nodeAt_row i2] at this
      rw [List.getD_eq_getElem?_getD, this, List.getElem?_map, Option.getD_some, v2', Option.map_some, Option.some.injEq]
      rw [bx', by', bz'] at hP'
      rw [← hP']
      simp [rowPt]) n hn
    rw [w1, Option.some.injEq] at h1
    subst h1
    rw [hmm, List.getElem?_map, v2, w2, ← hP]
    simp [rowPt]

theorem gridNamed_uni3 (N : Nat) (hN : 2 ≤ N) {path : List Nat} (lX lY lZ : K) {nx ny nz : Nat} (s0 s1 s2 : K)
    (h : 1 ≤ nx ∧ 1 ≤ ny ∧ 1 ≤ nz) {T : List (List Int)}
    (h1 : transformTopology (addStart 0 (gridTopo [uniAxis lX nx N s0, uniAxis lY ny N s1, uniAxis lZ nz N s2])) [path] path.length 0 = some T) :
    gridNamed [N, N, N] path (args3 lX lY lZ nx ny nz s0 s1 s2 0) =
      some (gridCoords [uniAxis lX nx N s0, uniAxis lY ny N s1, uniAxis lZ nz N s2], T) := by
  have e : gridCore (args3 lX lY lZ nx ny nz s0 s1 s2 0) [N, N, N] true none = some (rgrid3 lX lY lZ nx ny nz N N N s0 s1 s2 0) := rfl
  rw [gridNamed, e]
  simp only [Option.bind_eq_bind, Option.bind_some]
  rw [rgrid3, rgrid3_closed lX lY lZ s0 s1 s2 0 h ⟨hN, hN, hN⟩ (.refl _) (.refl _), h1]
  rfl

theorem gridNamed_bins3 (N : Nat) (hN : 2 ≤ N) {path : List Nat} {bx bY bz : List K} (s0 s1 s2 : K)
    (h : 2 ≤ bx.length ∧ 2 ≤ bY.length ∧ 2 ≤ bz.length) {T : List (List Int)}
    (h1 : transformTopology (addStart 0 (gridTopo [binAxis bx N s0, binAxis bY N s1, binAxis bz N s2])) [path] path.length 0 = some T) :
    gridNamed [N, N, N] path (argsB3 bx bY bz s0 s1 s2 0) = some (gridCoords [binAxis bx N s0, binAxis bY N s1, binAxis bz N s2], T) := by
  have e : gridCore (argsB3 bx bY bz s0 s1 s2 0) [N, N, N] true none = some (gridBins3 bx bY bz N N N s0 s1 s2 0) := rfl
  rw [gridNamed, e]
  simp only [Option.bind_eq_bind, Option.bind_some]
  rw [gridBins3, bins3_closed s0 s1 s2 0 h ⟨hN, hN, hN⟩ (.refl _) (.refl _), h1]
  rfl

theorem gridNamed_uni2 (N : Nat) (hN : 2 ≤ N) {path : List Nat} (lX lY : K) {nx ny : Nat} (s0 s1 : K)
    (h : 1 ≤ nx ∧ 1 ≤ ny) {T : List (List Int)}
    (h1 : transformTopology (addStart 0 (gridTopo [uniAxis lX nx N s0, uniAxis lY ny N s1])) [path] path.length 0 = some T) :
    gridNamed [N, N] path (args2 lX lY nx ny s0 s1 0) = some (gridCoords [uniAxis lX nx N s0, uniAxis lY ny N s1], T) := by
  have e : gridCore (args2 lX lY nx ny s0 s1 0) [N, N] true none = some (rgrid2 lX lY nx ny N N s0 s1 0) := rfl
  rw [gridNamed, e]
  simp only [Option.bind_eq_bind, Option.bind_some]
  rw [rgrid2, rgrid2_closed lX lY s0 s1 0 h ⟨hN, hN⟩ (.refl _) (.refl _), h1]
  rfl

theorem gridNamed_bins2 (N : Nat) (hN : 2 ≤ N) {path : List Nat} {bx bY : List K} (s0 s1 : K)
    (h : 2 ≤ bx.length ∧ 2 ≤ bY.length) {T : List (List Int)}
    (h1 : transformTopology (addStart 0 (gridTopo [binAxis bx N s0, binAxis bY N s1])) [path] path.length 0 = some T) :
    gridNamed [N, N] path (argsB2 bx bY s0 s1 0) = some (gridCoords [binAxis bx N s0, binAxis bY N s1], T) := by
  have e : gridCore (argsB2 bx bY s0 s1 0) [N, N] true none = some (gridBins2 bx bY N N s0 s1 0) := rfl
  rw [gridNamed, e]
  simp only [Option.bind_eq_bind, Option.bind_some]
  rw [gridBins2, bins2_closed s0 s1 0 h ⟨hN, hN⟩ (.refl _) (.refl _), h1]
  rfl

/-- The same, with the cells in any order. -/
def RenumberedCells (c : List (V3 K)) (t : Topo) (c' : List (V3 K)) (t' : Topo) : Prop :=
  c.length = c'.length ∧ ∃ σ : Nat → Nat, (∀ m, m < c.length → σ m < c'.length ∧ c'[σ m]? = c[m]?) ∧
    (∀ m m', m < c.length → m' < c.length → σ m = σ m' → m = m') ∧ (t.map (List.map σ)).Perm t'

theorem renumbered_cut {c c' : List (V3 K)} {t t' F' T2 : Topo} {path : List (List Nat)} {n w : Nat} (hw : ∀ r ∈ t, r.length = w)
    (hp : ∀ p ∈ path, p.length = n ∧ ∀ q ∈ p, q < w) (h : Renumbered c t c' t') (hF : transformTopology t' path n 0 = some F') (hP : F'.Perm T2) :
    ∃ F, transformTopology t path n 0 = some F ∧ RenumberedCells c F c' T2 := by
  obtain ⟨h1, σ, h2, h3, h4⟩ := h
  refine ⟨_, transformTopology_eq (pathOK_of_width hw hp), h1, σ, h2, h3, ?_⟩
  rw [transformTopology_eq (pathOK_of_width (w := w) (by
    intro r hr
    rw [h4] at hr
    obtain ⟨r', hr', rfl⟩ := List.mem_map.1 hr
    rw [List.length_map, hw r' hr']) hp), Option.some.injEq] at hF
  convert hP using 1
  rw [← hF, h4, transformed, transformed, List.map_flatMap, List.flatMap_map]
  apply List.flatMap_congr
  intro r hr
  rw [List.map_map]
  apply List.map_congr_left
  intro p hpp
  simp only [Function.comp_apply, List.map_map]
  apply List.map_congr_left
  intro q hq
  have : q < r.length := by rw [hw r hr]; exact (hp p hpp).2 q hq
  simp only [Function.comp_apply]
  rw [List.getD_eq_getElem?_getD, List.getD_eq_getElem?_getD, List.getElem?_map, List.getElem?_eq_getElem this]
  rfl

/-! ## hexahedra -/

/-- **C107** `H27_to_H8` takes the grid with quadratic cells to the grid with twice as many linear cells in each direction; the points are the same. -/
theorem C107_H27_to_H8 (lX lY lZ : K) {nx ny nz : Nat} (s0 s1 s2 : K) (h : 1 ≤ nx ∧ 1 ≤ ny ∧ 1 ≤ nz) :
    ∃ C T T' F, gridH27 (args3 lX lY lZ nx ny nz s0 s1 s2 0) = some (C, T) ∧ gridH8 (args3 lX lY lZ (2 * nx) (2 * ny) (2 * nz) s0 s1 s2 0) = some (C, T') ∧
      transformTopology (asTopo T) pathH27H8 8 0 = some F ∧ F.Perm (asTopo T') := by
  obtain ⟨T, h1, _⟩ := vtk3_closed 3 (by omega) tabH27 (uniAxis lX nx 3 s0) (uniAxis lY ny 3 s1) (uniAxis lZ nz 3 s2) rfl rfl rfl 0
  obtain ⟨T', h1', _⟩ := vtk3_closed 2 le_rfl tabH8 (uniAxis lX (2 * nx) 2 s0) (uniAxis lY (2 * ny) 2 s1) (uniAxis lZ (2 * nz) 2 s2) rfl rfl rfl 0
  have hx := halves_uni lX s0 h.1
  have hy := halves_uni lY s1 h.2.1
  have hz := halves_uni lZ s2 h.2.2
  obtain ⟨F, f1, f2⟩ := halves_topo hx hy hz h1 h1'
  refine ⟨_, T, T', F, gridNamed_uni3 3 (by omega) lX lY lZ s0 s1 s2 h h1, ?_, f1, f2⟩
  rw [halves_coords hx hy hz]
  exact gridNamed_uni3 2 le_rfl lX lY lZ s0 s1 s2 (by omega) h1'

/-- **C107** the same with bins: the grid with linear cells has the means of neighbouring values as well. -/
theorem C107_H27_to_H8_bins {bx bY bz bx' bY' bz' : List K} (s0 s1 s2 : K) (h : 2 ≤ bx.length ∧ 2 ≤ bY.length ∧ 2 ≤ bz.length)
    (hbx : HalvedBins bx bx') (hbY : HalvedBins bY bY') (hbz : HalvedBins bz bz') :
    ∃ C T T' F, gridH27 (argsB3 bx bY bz s0 s1 s2 0) = some (C, T) ∧ gridH8 (argsB3 bx' bY' bz' s0 s1 s2 0) = some (C, T') ∧
      transformTopology (asTopo T) pathH27H8 8 0 = some F ∧ F.Perm (asTopo T') := by
  obtain ⟨T, h1, _⟩ := vtk3_closed 3 (by omega) tabH27 (binAxis bx 3 s0) (binAxis bY 3 s1) (binAxis bz 3 s2) rfl rfl rfl 0
  obtain ⟨T', h1', _⟩ := vtk3_closed 2 le_rfl tabH8 (binAxis bx' 2 s0) (binAxis bY' 2 s1) (binAxis bz' 2 s2) rfl rfl rfl 0
  have hx := halves_bins s0 h.1 hbx
  have hy := halves_bins s1 h.2.1 hbY
  have hz := halves_bins s2 h.2.2 hbz
  obtain ⟨F, f1, f2⟩ := halves_topo hx hy hz h1 h1'
  refine ⟨_, T, T', F, gridNamed_bins3 3 (by omega) s0 s1 s2 h h1, ?_, f1, f2⟩
  rw [halves_coords hx hy hz]
  exact gridNamed_bins3 2 le_rfl s0 s1 s2 (by have := hbx.1; have := hbY.1; have := hbz.1; omega) h1'

/-- **C107** `H8_to_H27` takes the grid with linear cells to the grid with as many quadratic cells, up to the numbers of the points. -/
theorem C107_H8_to_H27 (lX lY lZ : K) {nx ny nz : Nat} (s0 s1 s2 : K) (h : 1 ≤ nx ∧ 1 ≤ ny ∧ 1 ≤ nz) :
    ∃ C T C' T' c t, gridH8 (args3 lX lY lZ nx ny nz s0 s1 s2 0) = some (C, T) ∧ gridH27 (args3 lX lY lZ nx ny nz s0 s1 s2 0) = some (C', T') ∧
      h8ToH27 (C.map rowPt) (asTopo T) = some (c, t) ∧ Renumbered c t (C'.map rowPt) (asTopo T') := by
  obtain ⟨T, h1, v1⟩ := vtk3_closed 2 le_rfl tabH8 (uniAxis lX nx 2 s0) (uniAxis lY ny 2 s1) (uniAxis lZ nz 2 s2) rfl rfl rfl 0
  obtain ⟨T', h1', v1'⟩ := vtk3_closed 3 (by omega) tabH27 (uniAxis lX nx 3 s0) (uniAxis lY ny 3 s1) (uniAxis lZ nz 3 s2) rfl rfl rfl 0
  obtain ⟨c, t, e, r⟩ := elevate_grid27 rfl rfl rfl rfl rfl rfl h h1' h1 v1' v1
  exact ⟨_, T, _, T', c, t, gridNamed_uni3 2 le_rfl lX lY lZ s0 s1 s2 h h1, gridNamed_uni3 3 (by omega) lX lY lZ s0 s1 s2 h h1', e, r⟩

/-- **C107** the same with bins. -/
theorem C107_H8_to_H27_bins {bx bY bz : List K} (s0 s1 s2 : K) (h : 2 ≤ bx.length ∧ 2 ≤ bY.length ∧ 2 ≤ bz.length) :
    ∃ C T C' T' c t, gridH8 (argsB3 bx bY bz s0 s1 s2 0) = some (C, T) ∧ gridH27 (argsB3 bx bY bz s0 s1 s2 0) = some (C', T') ∧
      h8ToH27 (C.map rowPt) (asTopo T) = some (c, t) ∧ Renumbered c t (C'.map rowPt) (asTopo T') := by
  obtain ⟨T, h1, v1⟩ := vtk3_closed 2 le_rfl tabH8 (binAxis bx 2 s0) (binAxis bY 2 s1) (binAxis bz 2 s2) rfl rfl rfl 0
  obtain ⟨T', h1', v1'⟩ := vtk3_closed 3 (by omega) tabH27 (binAxis bx 3 s0) (binAxis bY 3 s1) (binAxis bz 3 s2) rfl rfl rfl 0
  obtain ⟨c, t, e, r⟩ := elevate_grid27 (ax := binAxis bx 3 s0) (ay := binAxis bY 3 s1) (az := binAxis bz 3 s2) rfl rfl rfl rfl rfl rfl
    (by simp only [binAxis]; omega) h1' h1 v1' v1
  exact ⟨_, T, _, T', c, t, gridNamed_bins3 2 le_rfl s0 s1 s2 h h1, gridNamed_bins3 3 (by omega) s0 s1 s2 h h1', e, r⟩

/-- **C107** refining a grid: `H8_to_H27`, then `H27_to_H8`, gives the grid with twice as many cells in each direction, up to the order of the
points and of the cells. -/
theorem C107_refine_H8 (lX lY lZ : K) {nx ny nz : Nat} (s0 s1 s2 : K) (h : 1 ≤ nx ∧ 1 ≤ ny ∧ 1 ≤ nz) :
    ∃ C T C' T' c t F, gridH8 (args3 lX lY lZ nx ny nz s0 s1 s2 0) = some (C, T) ∧
      gridH8 (args3 lX lY lZ (2 * nx) (2 * ny) (2 * nz) s0 s1 s2 0) = some (C', T') ∧
      h8ToH27 (C.map rowPt) (asTopo T) = some (c, t) ∧ transformTopology t pathH27H8 8 0 = some F ∧
      RenumberedCells c F (C'.map rowPt) (asTopo T') := by
  obtain ⟨C2, T2, T3, F', a1, a2, a3, a4⟩ := C107_H27_to_H8 lX lY lZ s0 s1 s2 h
  obtain ⟨C, T, C2', T2', c, t, b1, b2, b3, b4⟩ := C107_H8_to_H27 lX lY lZ s0 s1 s2 h
  rw [b2, Option.some.injEq, Prod.mk.injEq] at a1
  obtain ⟨rfl, rfl⟩ := a1
  obtain ⟨F, f1, f2⟩ := renumbered_cut (w := 27) (by
    intro r hr
    obtain ⟨_, σ, _, _, e⟩ := b4
    have hm : r.map σ ∈ asTopo T2' := by rw [e]; exact List.mem_map_of_mem hr
    obtain ⟨C4, T4, g1, g2⟩ := C19_gridH27 lX lY lZ nx ny nz s0 s1 s2 0 h
    rw [b2, Option.some.injEq, Prod.mk.injEq] at g1
    obtain ⟨rfl, rfl⟩ := g1
    obtain ⟨r', hr', e'⟩ := List.mem_map.1 hm
    have := congrArg List.length e'
    rw [List.length_map, List.length_map, g2.2.1 r' hr'] at this
    exact this.symm) (by decide) b4 a3 a4
  exact ⟨C, T, C2', T3, c, t, F, b1, a2, b3, f1, f2⟩

end

/-! ## plane lattices -/

/-- The node with local coordinates `v` of the cell `p`, in the plane lattice with half the step. -/
def dbl2 (p : Nat × Nat) (v : V3 Int) : Nat × Nat := (2 * p.1 + off v.x, 2 * p.2 + off v.y)

/-- The four quarters of a cell, in the order of `Q9_to_Q4`. -/
def quarters (p : Nat × Nat) : List (Nat × Nat) :=
  [(2 * p.1, 2 * p.2), (2 * p.1 + 1, 2 * p.2), (2 * p.1 + 1, 2 * p.2 + 1), (2 * p.1, 2 * p.2 + 1)]

theorem mem_quarters {p q : Nat × Nat} : q ∈ quarters p ↔ q.1 / 2 = p.1 ∧ q.2 / 2 = p.2 := by
  obtain ⟨i, j⟩ := p
  obtain ⟨x, y⟩ := q
  simp only [quarters, List.mem_cons, Prod.mk.injEq, List.not_mem_nil, or_false]
  omega

theorem quarters_perm (a b : Nat) : ((latCells2 a b).flatMap quarters).Perm (latCells2 (2 * a) (2 * b)) := by
  rw [List.perm_ext_iff_of_nodup _ (latCells2_nodup _ _)]
  · intro q
    simp only [List.mem_flatMap, mem_latCells2, mem_quarters]
    constructor
    · rintro ⟨p, hp, h⟩
      omega
    · intro h
      exact ⟨(q.1 / 2, q.2 / 2), by dsimp only; omega, by simp⟩
  · rw [List.nodup_flatMap]
    constructor
    · rintro ⟨i, j⟩ _
      simp [quarters]
    · refine (latCells2_nodup a b).imp fun {p q} hpq => ?_
      rw [Function.onFun, List.disjoint_left]
      intro r h1 h2
      rw [mem_quarters] at h1 h2
      exact hpq (Prod.ext (h1.1.symm.trans h2.1) (h1.2.symm.trans h2.2))

section
variable {K : Type} [Field K] [CharZero K]

/-- The topology of `gridQ9` in closed form. -/
theorem quadTopo9 (ax ay : Axis K) (hx : ax.N = 3) (hy : ay.N = 3) {T : List (List Int)}
    (h : transformTopology (addStart 0 (gridTopo [ax, ay])) [pathQ9] pathQ9.length 0 = some T) :
    asTopo T = (latCells2 ax.n ay.n).map fun p => lcQ9.map fun v => latNo2 (2 * ay.n) (dbl2 p v) := by
  have hp : ∀ q ∈ pathQ9, q < ([ax, ay].map fun a => a.N).prod := by simp [hx, hy, pathQ9]
  have e := transformResult_eq (pathOK_grid [ax, ay] 0 hp) (0 : Int) fun _ => mem_transformWrites
  rw [show transformTopology (addStart 0 (gridTopo [ax, ay])) [pathQ9] pathQ9.length 0 = _ from e] at h
  obtain rfl := Option.some.inj h
  simp only [gridTopo, List.map_cons, List.map_nil, gridL2, hx, hy]
  simp only [asTopo, transformed, addStart, List.flatMap_map, List.map_cons, List.map_nil, ← List.map_eq_flatMap, List.map_map]
  apply List.map_congr_left
  rintro ⟨i, j⟩ _
  have key : ∀ (z : Int) (m : Nat), z = m → z.toNat = m := fun z m h => by omega
  simp only [Function.comp_def, latCells2, pathQ9, lcQ9, lcQ8, lcQ4, dbl2, off, latNo2, Axis.no, gridNo, lexNo, hx, hy, Axis.pts, List.range_succ, List.range_zero]
  simp
  repeat' apply And.intro
  all_goals (apply key; push_cast; ring)

omit [CharZero K] in
theorem transformed_lat9 (a b : Nat) :
    transformed ((latCells2 a b).map fun p => lcQ9.map fun v => latNo2 (2 * b) (dbl2 p v)) pathQ9Q4 0 =
      ((latCells2 a b).flatMap quarters).map fun p => (latCell2 p.1 p.2).map (latNo2 (2 * b)) := by
  rw [transformed, List.flatMap_map, List.map_flatMap]
  congr 1

theorem halves_coords2 {ax ay ax' ay' : Axis K} (hx : Halves ax ax') (hy : Halves ay ay') :
    gridCoords [ax, ay] = gridCoords [ax', ay'] := by
  simp only [gridCoords, List.map_cons, List.map_nil, gridL2, Axis.pts, hx.N, hx.N', hx.n, hy.N, hy.N', hy.n]
  have e : ∀ n : Nat, n * (3 - 1) + 1 = 2 * n * (2 - 1) + 1 := fun n => by omega
  rw [e, e]
  apply List.map_congr_left
  rintro ⟨x, y⟩ hp
  rw [mem_latCells2] at hp
  simp only [gridVal] at hp ⊢
  rw [hx.val x (by omega), hy.val y (by omega)]

theorem halves_topo2 {ax ay ax' ay' : Axis K} (hx : Halves ax ax') (hy : Halves ay ay') {T T' : List (List Int)}
    (h : transformTopology (addStart 0 (gridTopo [ax, ay])) [pathQ9] pathQ9.length 0 = some T)
    (h' : transformTopology (addStart 0 (gridTopo [ax', ay'])) [pathQ4] pathQ4.length 0 = some T') :
    ∃ F, transformTopology (asTopo T) pathQ9Q4 4 0 = some F ∧ F.Perm (asTopo T') := by
  rw [quadTopo9 ax ay hx.N hy.N h, quadTopo ax' ay' hx.N' hy.N' h', hx.n, hy.n]
  refine ⟨_, transformTopology_eq (pathOK_of_width (w := 9) ?_ (by decide)), ?_⟩
  · intro r hr
    obtain ⟨p, _, rfl⟩ := List.mem_map.1 hr
    rfl
  · rw [transformed_lat9]
    exact (quarters_perm _ _).map _

/-- The nodes of the corner, edge or cell that a node of a cell with 9 nodes belongs to. -/
def ent9 : List (List Nat) := [[0], [1], [2], [3], [0, 1], [1, 2], [2, 3], [3, 0], [0, 1, 2, 3]]

/-- At most half a step away. -/
def Near2 (q D : Nat × Nat) : Prop := (D.1 ≤ 2 * q.1 + 1 ∧ 2 * q.1 ≤ D.1 + 1) ∧ (D.2 ≤ 2 * q.2 + 1 ∧ 2 * q.2 ≤ D.2 + 1)

theorem near2_ext {D D' : Nat × Nat} (h : ∀ q, Near2 q D ↔ Near2 q D') : D = D' := by
  obtain ⟨a, b⟩ := D
  obtain ⟨a', b'⟩ := D'
  have h1 := h (a / 2, b / 2)
  have h2 := h ((a + 1) / 2, (b + 1) / 2)
  have h3 := h (a' / 2, b' / 2)
  have h4 := h ((a' + 1) / 2, (b' + 1) / 2)
  simp only [Near2, Prod.mk.injEq] at *
  refine ⟨?_, ?_⟩ <;> omega

/-- The points of the lattice of the corners that `ent9` selects. -/
def latEnt2 (p : Nat × Nat) (n : Nat) : List (Nat × Nat) := (ent9.getD n []).map fun m => (latCell2 p.1 p.2).getD m (0, 0)

theorem mem_latEnt2 {n : Nat} (hn : n < 9) (p q : Nat × Nat) : q ∈ latEnt2 p n ↔ Near2 q (dbl2 p (lcQ9.getD n 0)) := by
  obtain ⟨i, j⟩ := p
  obtain ⟨x, y⟩ := q
  interval_cases n <;> simp [latEnt2, ent9, latCell2, Near2, dbl2, off, lcQ9, lcQ8, lcQ4] <;> omega

theorem latEnt2_nodup {n : Nat} (hn : n < 9) (p : Nat × Nat) : (latEnt2 p n).Nodup := by
  obtain ⟨i, j⟩ := p
  interval_cases n <;> simp [latEnt2, ent9, latCell2]

theorem latEnt2_perm {n n' : Nat} (hn : n < 9) (hn' : n' < 9) (p p' : Nat × Nat) :
    (latEnt2 p n).Perm (latEnt2 p' n') ↔ dbl2 p (lcQ9.getD n 0) = dbl2 p' (lcQ9.getD n' 0) := by
  rw [List.perm_ext_iff_of_nodup (latEnt2_nodup hn p) (latEnt2_nodup hn' p')]
  simp only [mem_latEnt2 hn, mem_latEnt2 hn']
  exact ⟨near2_ext, fun h q => by rw [h]⟩

/-- Two nodes of an elevated mesh are the same iff they belong to the same corner, edge or cell. -/
theorem sameNode9 {coords c : List (V3 K)} {topo t : Topo} (hm : MeshOK coords topo 4)
    (ok : ElevatedMesh coords topo lcQ4 [[[0, 1], [1, 2], [2, 3], [3, 0]]] lcQ9 c t)
    (oc : Centred coords topo 8 c t) {I I' n n' : Nat} {cell cell' : List Nat} (hI : topo[I]? = some cell) (hI' : topo[I']? = some cell')
    (hn : n < 9) (hn' : n' < 9) (hc : cell.Perm cell' → I = I') :
    nodeAt t I n = nodeAt t I' n' ↔ ((ent9.getD n []).map fun q => cell.getD q 0).Perm ((ent9.getD n' []).map fun q => cell'.getD q 0) := by
  have hcorner : ∀ {I n : Nat} {cell : List Nat}, topo[I]? = some cell → n < 4 → nodeAt t I n = some (cell.getD n 0) ∧ cell.getD n 0 < coords.length ∧
      (ent9.getD n []) = [n] := by
    intro I n cell hI hn
    have hl := hm.len cell (List.mem_of_getElem? hI)
    have hln : n < cell.length := by omega
    refine ⟨?_, ?_, ?_⟩
    · rw [ok.elevated.corners I n hn, nodeAt_row hI, List.getD_eq_getElem?_getD, List.getElem?_eq_getElem hln]; rfl
    · rw [List.getD_eq_getElem?_getD, List.getElem?_eq_getElem hln]
      exact hm.lt cell (List.mem_of_getElem? hI) _ (List.getElem_mem hln)
    · interval_cases n <;> rfl
  have hnew : ∀ {I n : Nat} {cell : List Nat}, topo[I]? = some cell → 4 ≤ n → n < 9 → ∃ m, coords.length ≤ m ∧ nodeAt t I n = some m := by
    intro I n cell hI h1 h2
    rcases Nat.lt_or_ge n 8 with h | h
    · obtain ⟨m, m1, m2, _⟩ := ok.elevated.place 0 (n - 4) I _ cell rfl (by simp; omega) hI
      exact ⟨m, m1, by rw [← m2]; congr 1; simp [lcQ4]; omega⟩
    · obtain ⟨m, m1, m2, _⟩ := oc I cell hI
      exact ⟨m, m1, by rw [show n = 8 by omega]; exact m2⟩
  have hcentre : ∀ {I I' n' : Nat} {cell cell' : List Nat}, topo[I]? = some cell → nodeAt t I 8 = nodeAt t I' n' → I' = I ∧ n' = 8 := by
    intro I I' n' cell cell' hI e
    obtain ⟨m, _, m2, _, m4⟩ := oc I cell hI
    exact m4 I' n' (by rw [← e, m2])
  have hsize : ∀ n < 9, (ent9.getD n []).length = if n < 4 then 1 else if n < 8 then 2 else 4 := by decide
  have hs := hsize n hn
  have hs' := hsize n' hn'
  have hpl : ((ent9.getD n []).map fun q => cell.getD q 0).Perm ((ent9.getD n' []).map fun q => cell'.getD q 0) →
      (ent9.getD n []).length = (ent9.getD n' []).length := fun h => by simpa using h.length_eq
  have hlen := hm.len cell (List.mem_of_getElem? hI)
  have hlen' := hm.len cell' (List.mem_of_getElem? hI')
  have hE : ∀ e < 4, ent9.getD (4 + e) [] = [[0, 1], [1, 2], [2, 3], [3, 0]].getD e [] := by decide
  have hall : ∀ {cell : List Nat}, cell.length = 4 → ((ent9.getD 8 []).map fun q => cell.getD q 0) = cell := by
    intro cell h
    match cell, h with
    | [_, _, _, _], _ => rfl
  rcases Nat.lt_or_ge n 4 with h8 | h8
  · obtain ⟨c1, c2, c3⟩ := hcorner hI h8
    rcases Nat.lt_or_ge n' 4 with h8' | h8'
    · obtain ⟨d1, d2, d3⟩ := hcorner hI' h8'
      rw [c1, d1, c3, d3]
      simp
    · obtain ⟨m, m1, m2⟩ := hnew hI' h8' hn'
      refine ⟨fun e => ?_, fun e => ?_⟩
      · rw [c1, m2, Option.some.injEq] at e; omega
      · have := hpl e; split_ifs at hs hs' <;> omega
  rcases Nat.lt_or_ge n' 4 with h8' | h8'
  · obtain ⟨d1, d2, d3⟩ := hcorner hI' h8'
    obtain ⟨m, m1, m2⟩ := hnew hI h8 hn
    refine ⟨fun e => ?_, fun e => ?_⟩
    · rw [d1, m2, Option.some.injEq] at e; omega
    · have := hpl e; split_ifs at hs hs' <;> omega
  by_cases h26 : n = 8
  · subst h26
    refine ⟨fun e => ?_, fun e => ?_⟩
    · obtain ⟨rfl, rfl⟩ := hcentre (cell' := cell') hI e
      rw [hI] at hI'
      obtain rfl := Option.some.inj hI'
      exact .refl _
    · have h' : n' = 8 := by have := hpl e; split_ifs at hs hs' <;> omega
      subst h'
      rw [hall hlen, hall hlen'] at e
      rw [hc e]
  by_cases h26' : n' = 8
  · subst h26'
    refine ⟨fun e => ?_, fun e => ?_⟩
    · exact absurd (hcentre (cell' := cell) hI' e.symm).2 h26
    · have := hpl e; split_ifs at hs hs' <;> omega
  obtain ⟨e, rfl⟩ := Nat.exists_eq_add_of_le h8
  obtain ⟨e', rfl⟩ := Nat.exists_eq_add_of_le h8'
  have := ok.elevated.conform 0 e I 0 e' I' _ _ cell cell' rfl (by simp; omega) hI rfl (by simp; omega) hI'
  rw [hE e (by omega), hE e' (by omega)]
  exact this.trans (and_iff_right rfl)

theorem surj9 {a b : Nat} (h : 1 ≤ a ∧ 1 ≤ b) {D : Nat × Nat} (hD : InLat2 (2 * a) (2 * b) D) :
    ∃ p ∈ latCells2 a b, ∃ n < 9, dbl2 p (lcQ9.getD n 0) = D := by
  obtain ⟨x, y⟩ := D
  obtain ⟨h1, h2⟩ := hD
  simp only at h1 h2
  have hax : ∀ {a x : Nat}, 1 ≤ a → x ≤ 2 * a → ∃ p o, p < a ∧ o < 3 ∧ x = 2 * p + o := by
    intro a x ha hx
    by_cases e : x = 2 * a
    · exact ⟨a - 1, 2, by omega, by omega, by omega⟩
    · exact ⟨x / 2, x % 2, by omega, by omega, by omega⟩
  obtain ⟨p1, o1, q1, r1, rfl⟩ := hax h.1 h1
  obtain ⟨p2, o2, q2, r2, rfl⟩ := hax h.2 h2
  have tab : ∀ o1 < 3, ∀ o2 < 3, ∃ n < 9, off (lcQ9.getD n 0).x = o1 ∧ off (lcQ9.getD n 0).y = o2 := by
    decide +kernel
  obtain ⟨n, hn, e1, e2⟩ := tab o1 r1 o2 r2
  exact ⟨(p1, p2), mem_latCells2.2 ⟨q1, q2⟩, n, hn, by simp only [dbl2, e1, e2]⟩

theorem off_lt2 : ∀ n < 9, off (lcQ9.getD n 0).x ≤ 2 ∧ off (lcQ9.getD n 0).y ≤ 2 := by decide +kernel

theorem dbl2_in {a b : Nat} {p : Nat × Nat} (hp : p ∈ latCells2 a b) {n : Nat} (hn : n < 9) :
    InLat2 (2 * a) (2 * b) (dbl2 p (lcQ9.getD n 0)) := by
  have := off_lt2 n hn
  rw [mem_latCells2] at hp
  simp only [InLat2, dbl2]
  omega

theorem lattice_lt2 {a b : Nat} {p : Nat × Nat} (h : InLat2 a b p) : latNo2 b p < (a + 1) * (b + 1) := by
  obtain ⟨x, y⟩ := p
  obtain ⟨h1, h2⟩ := h
  simp only [latNo2] at *
  calc x * (b + 1) + y < x * (b + 1) + (b + 1) := by omega
    _ = (x + 1) * (b + 1) := by ring
    _ ≤ (a + 1) * (b + 1) := Nat.mul_le_mul_right _ (by omega)

theorem lattice_surj2 {a b n : Nat} (h : n < (a + 1) * (b + 1)) : ∃ p, InLat2 a b p ∧ latNo2 b p = n := by
  refine ⟨(n / (b + 1), n % (b + 1)), ⟨?_, ?_⟩, ?_⟩
  · have : n / (b + 1) < a + 1 := Nat.div_lt_of_lt_mul (by rwa [Nat.mul_comm])
    simp only; omega
  · have := Nat.mod_lt n (show 0 < b + 1 by omega)
    simp only; omega
  · exact Nat.div_add_mod' n (b + 1)

theorem rowPt2 {P : V3 K} (h : P.z = 0) : rowPt [P.x, P.y] = P := by
  obtain ⟨x, y, z⟩ := P
  simp only at h
  simp [rowPt, h]

theorem z_zero {x0 x1 y0 y1 : K} {v P : V3 K} (h : P = (boxAff x0 x1 y0 y1 0 0).app v) : P.z = 0 := by
  rw [h]
  simp [boxAff, Aff.app]

/-- Elevating a linear grid gives the quadratic one. -/
theorem elevate_grid9 {ax ay ax' ay' : Axis K} (hx : ax.N = 3) (hy : ay.N = 3) (hx' : ax' = ⟨ax.n, 2, ax.b⟩)
    (hy' : ay' = ⟨ay.n, 2, ay.b⟩) (h : 1 ≤ ax.n ∧ 1 ≤ ay.n) {T T' : List (List Int)}
    (hT : transformTopology (addStart 0 (gridTopo [ax, ay])) [pathQ9] pathQ9.length 0 = some T)
    (hT' : transformTopology (addStart 0 (gridTopo [ax', ay'])) [pathQ4] pathQ4.length 0 = some T')
    (hV : VtkGrid2 lcQ9 ax ay 0 (gridCoords [ax, ay]) T) (hV' : VtkGrid2 lcQ4 ax' ay' 0 (gridCoords [ax', ay']) T') :
    ∃ c t, q4ToQ9 ((gridCoords [ax', ay']).map rowPt) (asTopo T') = some (c, t) ∧
      Renumbered c t ((gridCoords [ax, ay]).map rowPt) (asTopo T) := by
  have nx' : ax'.n = ax.n := by rw [hx']
  have ny' : ay'.n = ay.n := by rw [hy']
  have bx' : ax'.b = ax.b := by rw [hx']
  have by' : ay'.b = ay.b := by rw [hy']
  have e9 := quadTopo9 ax ay hx hy hT
  have e4 := quadTopo ax' ay' (by rw [hx']) (by rw [hy']) hT'
  rw [nx', ny'] at e4
  have hlC : ((gridCoords [ax, ay]).map rowPt).length = (2 * ax.n + 1) * (2 * ay.n + 1) := by
    rw [List.length_map, gridCoords, length_gridL]
    simp only [List.map_cons, List.map_nil, Axis.pts, hx, hy, List.prod_cons, List.prod_nil]
    ring
  have hlC' : ((gridCoords [ax', ay']).map rowPt).length = (ax.n + 1) * (ay.n + 1) := by
    rw [List.length_map, gridCoords, length_gridL]
    simp only [List.map_cons, List.map_nil, Axis.pts, hx', hy', List.prod_cons, List.prod_nil]
    ring
  have idx := lattice_indexed2 h
  have hcell : ∀ {I : Nat}, I < (asTopo T').length → ∃ p ∈ latCells2 ax.n ay.n, I = p.1 * ay.n + p.2 ∧
      (asTopo T')[I]? = some ((latCell2 p.1 p.2).map (latNo2 ay.n)) ∧
      (asTopo T)[I]? = some (lcQ9.map fun v => latNo2 (2 * ay.n) (dbl2 p v)) := by
    intro I hI
    rw [e4, List.length_map] at hI
    have := latCells2_lookup.1 (List.getElem?_eq_getElem hI)
    refine ⟨(latCells2 ax.n ay.n)[I], List.getElem_mem hI, this.2, ?_, ?_⟩
    · rw [e4, List.getElem?_map, List.getElem?_eq_getElem hI]; rfl
    · rw [e9, List.getElem?_map, List.getElem?_eq_getElem hI]; rfl
  have hm : MeshOK ((gridCoords [ax', ay']).map rowPt) (asTopo T') 4 := by
    constructor
    · intro r hr
      rw [e4] at hr
      obtain ⟨p, _, rfl⟩ := List.mem_map.1 hr
      rfl
    · intro r hr x hx
      rw [e4] at hr
      obtain ⟨p, hp, rfl⟩ := List.mem_map.1 hr
      obtain ⟨q, hq, rfl⟩ := List.mem_map.1 hx
      rw [hlC']
      exact idx.lt q (idx.inside p hp q hq)
  obtain ⟨c, t, e, ok, oc⟩ := C12_Q4_to_Q9 _ _ hm
  refine ⟨c, t, e, ?_⟩
  have hlt : t.length = (asTopo T').length := ok.elevated.cells
  have hw : ∀ r ∈ t, r.length = 9 := ok.width
  have hw' : ∀ r ∈ asTopo T, r.length = 9 := by
    intro r hr
    rw [e9] at hr
    obtain ⟨p, _, rfl⟩ := List.mem_map.1 hr
    rfl
  have hn9 : ∀ {I n : Nat} {p : Nat × Nat}, (asTopo T)[I]? = some (lcQ9.map fun v => latNo2 (2 * ay.n) (dbl2 p v)) → n < 9 →
      nodeAt (asTopo T) I n = some (latNo2 (2 * ay.n) (dbl2 p (lcQ9.getD n 0))) := by
    intro I n p hI hn
    have hn' : n < lcQ9.length := hn
    rw [nodeAt_row hI, List.getElem?_map, List.getElem?_eq_getElem hn', List.getD_eq_getElem?_getD, List.getElem?_eq_getElem hn']
    rfl
  refine renumbered_of (w := 9) (by rw [hlt, e4, e9]; simp) hw hw' ?_ ok.inRange ?_ ?_ ?_ ?_
  · -- the same nodes
    intro I n I' n' hI hI' hn hn'
    rw [hlt] at hI hI'
    obtain ⟨p, hp, i1, i2, i3⟩ := hcell hI
    obtain ⟨p', hp', j1, j2, j3⟩ := hcell hI'
    rw [hn9 i3 hn, hn9 j3 hn', Option.some.injEq]
    have hE : ∀ {p : Nat × Nat} {n : Nat}, n < 9 → ((ent9.getD n []).map fun q => ((latCell2 p.1 p.2).map (latNo2 ay.n)).getD q 0) =
        (latEnt2 p n).map (latNo2 ay.n) := by
      intro p n hn
      rw [latEnt2, List.map_map]
      apply List.map_congr_left
      intro q hq
      have hq8 : q < (latCell2 p.1 p.2).length := (by decide : ∀ n < 9, ∀ q ∈ ent9.getD n [], q < 4) n hn q hq
      simp only [Function.comp_apply]
      rw [List.getD_eq_getElem?_getD, List.getElem?_map, List.getElem?_eq_getElem hq8, List.getD_eq_getElem?_getD, List.getElem?_eq_getElem hq8]
      rfl
    have hsub : ∀ {p q : Nat × Nat} {n : Nat}, p ∈ latCells2 ax.n ay.n → n < 9 → q ∈ latEnt2 p n → InLat2 ax.n ay.n q := by
      intro p q n hp hn hq
      obtain ⟨m, hm, rfl⟩ := List.mem_map.1 hq
      have hq8 : m < (latCell2 p.1 p.2).length := (by decide : ∀ n < 9, ∀ q ∈ ent9.getD n [], q < 4) n hn m hm
      apply idx.inside p hp
      rw [List.getD_eq_getElem?_getD, List.getElem?_eq_getElem hq8]
      exact List.getElem_mem hq8
    have hpm : ∀ {n n' : Nat}, n < 9 → n' < 9 → (((latEnt2 p n).map (latNo2 ay.n)).Perm ((latEnt2 p' n').map (latNo2 ay.n)) ↔
        dbl2 p (lcQ9.getD n 0) = dbl2 p' (lcQ9.getD n' 0)) := by
      intro n n' hn hn'
      rw [perm_map_inj (latEnt2_nodup hn p) (latEnt2_nodup hn' p'), latEnt2_perm hn hn']
      rintro x y (h1 | h1) (h2 | h2) e
      · exact latNo2_inj (hsub hp hn h1) (hsub hp hn h2) e
      · exact latNo2_inj (hsub hp hn h1) (hsub hp' hn' h2) e
      · exact latNo2_inj (hsub hp' hn' h1) (hsub hp hn h2) e
      · exact latNo2_inj (hsub hp' hn' h1) (hsub hp' hn' h2) e
    rw [sameNode9 hm ok oc i2 j2 hn hn', hE hn, hE hn', hpm hn hn']
    · refine ⟨fun e => by rw [e], fun e => latNo2_inj (dbl2_in hp hn) (dbl2_in hp' hn') e⟩
    · intro hperm
      have h26 := hE (p := p) (n := 8) (by omega)
      have h26' := hE (p := p') (n := 8) (by omega)
      have hself : ∀ p : Nat × Nat, latEnt2 p  8 = latCell2 p.1 p.2 := fun p => rfl
      have := (hpm (n := 8) (n' := 8) (by omega) (by omega)).1 (by rw [hself, hself]; exact hperm)
      have h0 : off (lcQ9.getD 8 0).x = 1 ∧ off (lcQ9.getD 8 0).y = 1 := by decide +kernel
      simp only [dbl2, h0, Prod.mk.injEq] at this
      rw [i1, j1, show p.1 = p'.1 by omega, show p.2 = p'.2 by omega]
  · -- numbers in range
    intro I n m hm'
    have hI := nodeAt_lt hm'
    rw [show (asTopo T).length = (asTopo T').length by rw [e4, e9]; simp] at hI
    obtain ⟨p, hp, i1, i2, i3⟩ := hcell hI
    have hn : n < 9 := by
      rw [nodeAt_row i3] at hm'
      exact (List.getElem?_eq_some_iff.1 hm').1
    rw [hn9 i3 hn, Option.some.injEq] at hm'
    rw [← hm', hlC]
    exact lattice_lt2 (dbl2_in hp hn)
  · -- points of the elevated mesh are used
    intro m hmc
    rcases Nat.lt_or_ge m ((gridCoords [ax', ay']).map rowPt).length with hlt' | hge
    · rw [hlC'] at hlt'
      obtain ⟨q, hq, rfl⟩ := idx.surj m hlt'
      obtain ⟨p, hp, hn⟩ := idx.used q hq
      have hqm := (idx.mem p hp q hq).2 hn
      obtain ⟨k, hk, rfl⟩ := List.mem_iff_getElem.1 hqm
      obtain ⟨I, hI, rfl⟩ := List.mem_iff_getElem.1 hp
      have hk8 : k < lcQ4.length := hk
      refine ⟨I, k, ?_⟩
      rw [ok.elevated.corners I k hk8, e4, nodeAt_row (by rw [List.getElem?_map, List.getElem?_eq_getElem hI]; rfl), List.getElem?_map,
        List.getElem?_eq_getElem hk]
      rfl
    · exact ok.elevated.used m hge hmc
  · -- points of the quadratic grid are used
    intro m hmc
    rw [hlC] at hmc
    obtain ⟨D, hD, rfl⟩ := lattice_surj2 hmc
    obtain ⟨p, hp, n, hn, e⟩ := surj9 h hD
    obtain ⟨I, hI, rfl⟩ := List.mem_iff_getElem.1 hp
    refine ⟨I, n, ?_⟩
    rw [← e, hn9 _ hn]
    rw [e9, List.getElem?_map, List.getElem?_eq_getElem hI]
    rfl
  · -- places
    intro I n m m' h1 h2
    have hI := nodeAt_lt h1
    rw [hlt] at hI
    obtain ⟨p, hp, i1, i2, i3⟩ := hcell hI
    have hn : n < 9 := by
      rw [nodeAt_row i3] at h2
      exact (List.getElem?_eq_some_iff.1 h2).1
    rw [mem_latCells2] at hp
    obtain ⟨node, v1, P, hP, v2⟩ := hV.2.2 p.1 p.2 n hp.1 hp.2 hn
    have hmm : m' = node := by
      rw [asTopo, nodeAt_map', i1, v1] at h2
      simpa using h2.symm
    obtain ⟨mm, w1, w2⟩ := ok.ordered I _ (boxAff (ax.b p.1) (ax.b (p.1 + 1)) (ay.b p.2) (ay.b (p.2 + 1)) 0 0) i2 (by
      intro q hq
      obtain ⟨node', v1', P', hP', v2'⟩ := hV'.2.2 p.1 p.2 q (by rw [nx']; exact hp.1) (by rw [ny']; exact hp.2) hq
      have : nodeAt (asTopo T') I q = some node' := by
        rw [asTopo, nodeAt_map', i1, ← ny', v1']
        simp
      rw [nodeAt_row i2] at this
      rw [List.getD_eq_getElem?_getD, this, List.getElem?_map, Option.getD_some, v2', Option.map_some, Option.some.injEq]
      rw [bx', by'] at hP'
      rw [← hP', rowPt2 (z_zero hP')]) n hn
    rw [w1, Option.some.injEq] at h1
    subst h1
    rw [hmm, List.getElem?_map, v2, w2, ← hP, Option.map_some, rowPt2 (z_zero hP)]

/-! ## quadrilaterals -/

/-- **C107** `Q9_to_Q4` takes the grid with quadratic cells to the grid with twice as many linear cells in each direction; the points are the same. -/
theorem C107_Q9_to_Q4 (lX lY : K) {nx ny : Nat} (s0 s1 : K) (h : 1 ≤ nx ∧ 1 ≤ ny) :
    ∃ C T T' F, gridQ9 (args2 lX lY nx ny s0 s1 0) = some (C, T) ∧ gridQ4 (args2 lX lY (2 * nx) (2 * ny) s0 s1 0) = some (C, T') ∧
      transformTopology (asTopo T) pathQ9Q4 4 0 = some F ∧ F.Perm (asTopo T') := by
  obtain ⟨T, h1, _⟩ := vtk2_closed 3 (by omega) tabQ9 (uniAxis lX nx 3 s0) (uniAxis lY ny 3 s1) rfl rfl 0
  obtain ⟨T', h1', _⟩ := vtk2_closed 2 le_rfl tabQ4 (uniAxis lX (2 * nx) 2 s0) (uniAxis lY (2 * ny) 2 s1) rfl rfl 0
  have hx := halves_uni lX s0 h.1
  have hy := halves_uni lY s1 h.2
  obtain ⟨F, f1, f2⟩ := halves_topo2 hx hy h1 h1'
  refine ⟨_, T, T', F, gridNamed_uni2 3 (by omega) lX lY s0 s1 h h1, ?_, f1, f2⟩
  rw [halves_coords2 hx hy]
  exact gridNamed_uni2 2 le_rfl lX lY s0 s1 (by omega) h1'

/-- **C107** the same with bins: the grid with linear cells has the means of neighbouring values as well. -/
theorem C107_Q9_to_Q4_bins {bx bY bx' bY' : List K} (s0 s1 : K) (h : 2 ≤ bx.length ∧ 2 ≤ bY.length)
    (hbx : HalvedBins bx bx') (hbY : HalvedBins bY bY') :
    ∃ C T T' F, gridQ9 (argsB2 bx bY s0 s1 0) = some (C, T) ∧ gridQ4 (argsB2 bx' bY' s0 s1 0) = some (C, T') ∧
      transformTopology (asTopo T) pathQ9Q4 4 0 = some F ∧ F.Perm (asTopo T') := by
  obtain ⟨T, h1, _⟩ := vtk2_closed 3 (by omega) tabQ9 (binAxis bx 3 s0) (binAxis bY 3 s1) rfl rfl 0
  obtain ⟨T', h1', _⟩ := vtk2_closed 2 le_rfl tabQ4 (binAxis bx' 2 s0) (binAxis bY' 2 s1) rfl rfl 0
  have hx := halves_bins s0 h.1 hbx
  have hy := halves_bins s1 h.2 hbY
  obtain ⟨F, f1, f2⟩ := halves_topo2 hx hy h1 h1'
  refine ⟨_, T, T', F, gridNamed_bins2 3 (by omega) s0 s1 h h1, ?_, f1, f2⟩
  rw [halves_coords2 hx hy]
  exact gridNamed_bins2 2 le_rfl s0 s1 (by have := hbx.1; have := hbY.1; omega) h1'

/-- **C107** `Q4_to_Q9` takes the grid with linear cells to the grid with as many quadratic cells, up to the numbers of the points. -/
theorem C107_Q4_to_Q9 (lX lY : K) {nx ny : Nat} (s0 s1 : K) (h : 1 ≤ nx ∧ 1 ≤ ny) :
    ∃ C T C' T' c t, gridQ4 (args2 lX lY nx ny s0 s1 0) = some (C, T) ∧ gridQ9 (args2 lX lY nx ny s0 s1 0) = some (C', T') ∧
      q4ToQ9 (C.map rowPt) (asTopo T) = some (c, t) ∧ Renumbered c t (C'.map rowPt) (asTopo T') := by
  obtain ⟨T, h1, v1⟩ := vtk2_closed 2 le_rfl tabQ4 (uniAxis lX nx 2 s0) (uniAxis lY ny 2 s1) rfl rfl 0
  obtain ⟨T', h1', v1'⟩ := vtk2_closed 3 (by omega) tabQ9 (uniAxis lX nx 3 s0) (uniAxis lY ny 3 s1) rfl rfl 0
  obtain ⟨c, t, e, r⟩ := elevate_grid9 rfl rfl rfl rfl h h1' h1 v1' v1
  exact ⟨_, T, _, T', c, t, gridNamed_uni2 2 le_rfl lX lY s0 s1 h h1, gridNamed_uni2 3 (by omega) lX lY s0 s1 h h1', e, r⟩

/-- **C107** the same with bins. -/
theorem C107_Q4_to_Q9_bins {bx bY : List K} (s0 s1 : K) (h : 2 ≤ bx.length ∧ 2 ≤ bY.length) :
    ∃ C T C' T' c t, gridQ4 (argsB2 bx bY s0 s1 0) = some (C, T) ∧ gridQ9 (argsB2 bx bY s0 s1 0) = some (C', T') ∧
      q4ToQ9 (C.map rowPt) (asTopo T) = some (c, t) ∧ Renumbered c t (C'.map rowPt) (asTopo T') := by
  obtain ⟨T, h1, v1⟩ := vtk2_closed 2 le_rfl tabQ4 (binAxis bx 2 s0) (binAxis bY 2 s1) rfl rfl 0
  obtain ⟨T', h1', v1'⟩ := vtk2_closed 3 (by omega) tabQ9 (binAxis bx 3 s0) (binAxis bY 3 s1) rfl rfl 0
  obtain ⟨c, t, e, r⟩ := elevate_grid9 (ax := binAxis bx 3 s0) (ay := binAxis bY 3 s1) rfl rfl rfl rfl
    (by simp only [binAxis]; omega) h1' h1 v1' v1
  exact ⟨_, T, _, T', c, t, gridNamed_bins2 2 le_rfl s0 s1 h h1, gridNamed_bins2 3 (by omega) s0 s1 h h1', e, r⟩

/-- **C107** refining a grid: `Q4_to_Q9`, then `Q9_to_Q4`, gives the grid with twice as many cells in each direction, up to the order of the
points and of the cells. -/
theorem C107_refine_Q4 (lX lY : K) {nx ny : Nat} (s0 s1 : K) (h : 1 ≤ nx ∧ 1 ≤ ny) :
    ∃ C T C' T' c t F, gridQ4 (args2 lX lY nx ny s0 s1 0) = some (C, T) ∧
      gridQ4 (args2 lX lY (2 * nx) (2 * ny) s0 s1 0) = some (C', T') ∧
      q4ToQ9 (C.map rowPt) (asTopo T) = some (c, t) ∧ transformTopology t pathQ9Q4 4 0 = some F ∧
      RenumberedCells c F (C'.map rowPt) (asTopo T') := by
  obtain ⟨C2, T2, T3, F', a1, a2, a3, a4⟩ := C107_Q9_to_Q4 lX lY s0 s1 h
  obtain ⟨C, T, C2', T2', c, t, b1, b2, b3, b4⟩ := C107_Q4_to_Q9 lX lY s0 s1 h
  rw [b2, Option.some.injEq, Prod.mk.injEq] at a1
  obtain ⟨rfl, rfl⟩ := a1
  obtain ⟨F, f1, f2⟩ := renumbered_cut (w := 9) (by
    intro r hr
    obtain ⟨_, σ, _, _, e⟩ := b4
    have hm : r.map σ ∈ asTopo T2' := by rw [e]; exact List.mem_map_of_mem hr
    obtain ⟨C4, T4, g1, g2⟩ := C19_gridQ9 lX lY nx ny s0 s1 0 h
    rw [b2, Option.some.injEq, Prod.mk.injEq] at g1
    obtain ⟨rfl, rfl⟩ := g1
    obtain ⟨r', hr', e'⟩ := List.mem_map.1 hm
    have := congrArg List.length e'
    rw [List.length_map, List.length_map, g2.2.1 r' hr'] at this
    exact this.symm) (by decide) b4 a3 a4
  exact ⟨C, T, C2', T3, c, t, F, b1, a2, b3, f1, f2⟩

end

/-! ## examples -/

example : HalvedBins ([0, 1, 3] : List ℚ) [0, 1 / 2, 1, 2, 3] := by
  refine ⟨by decide, ?_, ?_⟩
  · rintro (_ | _ | _ | i) v h <;> simp_all
  · rintro (_ | _ | _ | i) v w h h' <;> simp_all <;> subst_vars <;> norm_num

/-- One quadratic cell and the four linear cells it is cut into; `gridQ4` has the same four cells in another order. -/
example : ((gridQ9 (args2 (1 : ℚ) 1 1 1 0 0 0)).bind fun g => transformTopology (asTopo g.2) pathQ9Q4 4 0) =
    some [[0, 3, 4, 1], [3, 6, 7, 4], [4, 7, 8, 5], [1, 4, 5, 2]] := by decide +kernel

example : (gridQ4 (args2 (1 : ℚ) 1 2 2 0 0 0)).map (fun g => asTopo g.2) =
    some [[0, 3, 4, 1], [1, 4, 5, 2], [3, 6, 7, 4], [4, 7, 8, 5]] := by decide +kernel

/-- The same cell by elevation: its corners keep their numbers, hence the other numbers. -/
example : ((gridQ4 (args2 (1 : ℚ) 1 1 1 0 0 0)).bind fun g => (q4ToQ9 (g.1.map rowPt) (asTopo g.2)).map fun r => r.2) =
    some [[0, 2, 3, 1, 5, 7, 6, 4, 8]] := by decide +kernel

example : (gridQ9 (args2 (1 : ℚ) 1 1 1 0 0 0)).map (fun g => asTopo g.2) = some [[0, 6, 8, 2, 3, 7, 5, 1, 4]] := by decide +kernel

/-- The points of meshes that are renumbered are the same; here they are not. -/
example : ¬ Renumbered ([⟨0, 0, 0⟩, ⟨1, 0, 0⟩] : List (V3 ℚ)) [[0, 1]] [⟨0, 0, 0⟩, ⟨2, 0, 0⟩] [[0, 1]] := by
  rintro ⟨_, σ, h1, _, h3⟩
  obtain ⟨h, h'⟩ := h1 1 (by decide)
  simp only [List.map_cons, List.map_nil, List.cons.injEq, and_true] at h3
  rw [← h3.2] at h'
  simp only [List.getElem?_cons_succ, List.getElem?_cons_zero, Option.some.injEq, V3.mk.injEq] at h'
  norm_num at h'

/-- Two cells on a line share their face also after elevation: 2 * 27 - 9 points. -/
example : ((gridH8 (args3 (2 : ℚ) 1 1 2 1 1 0 0 0 0)).bind fun g => (h8ToH27 (g.1.map rowPt) (asTopo g.2)).map fun r => (r.1.length, r.2.map List.length)) =
    some (45, [27, 27]) := by decide +kernel

end PM
