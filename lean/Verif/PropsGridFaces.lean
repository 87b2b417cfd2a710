import Verif.PropsGridNamed
import Verif.PropsSkin
import Verif.PropsSimplices
import Mathlib.Data.List.Rotate
import Mathlib.Tactic.IntervalCases

/-!
# C99: faces of grids

The faces of the cells of a grid (`gridH8`, `H8_to_Q4`) and the edges of the cells of a plane grid (`gridQ4`, `edges_Q4`): those inside of the
box belong to two cells, which list them in opposite directions, those on the sides of the box to one cell.
-/

namespace PM

section
variable {K : Type} [Field K] [CharZero K]

/-- The node numbers of `grid` as a topology; they are not negative for `start=0`. -/
def asTopo (T : List (List Int)) : Topo := T.map (List.map Int.toNat)

/-- Number of the point `(x, y, z)` of the lattice. -/
def latNo (b c : Nat) (p : Nat × Nat × Nat) : Nat := (p.1 * (b + 1) + p.2.1) * (c + 1) + p.2.2

/-- The corners of the cell `(i, j, k)` of a lattice. -/
def latCell (i j k : Nat) : List (Nat × Nat × Nat) :=
  [(i, j, k), (i + 1, j, k), (i + 1, j + 1, k), (i, j + 1, k), (i, j, k + 1), (i + 1, j, k + 1), (i + 1, j + 1, k + 1), (i, j + 1, k + 1)]

/-- The cells of a lattice. -/
def latCells (a b c : Nat) : List (Nat × Nat × Nat) :=
  (List.range a).flatMap fun i => (List.range b).flatMap fun j => (List.range c).map fun k => (i, j, k)

omit [Field K] [CharZero K] in
theorem gridL3 {β : Type} (a b c : Nat) (f : List Nat → β) : gridL [a, b, c] f = (latCells a b c).map fun p => f [p.1, p.2.1, p.2.2] := by
  simp [gridL, latCells, List.map_flatMap, Function.comp_def, ← List.map_eq_flatMap]

/-- The topology of `gridH8` in closed form. -/
theorem hexTopo (ax ay az : Axis K) (hx : ax.N = 2) (hy : ay.N = 2) (hz : az.N = 2) {T : List (List Int)}
    (h : transformTopology (addStart 0 (gridTopo [ax, ay, az])) [pathH8] pathH8.length 0 = some T) :
    asTopo T = (latCells ax.n ay.n az.n).map fun p => (latCell p.1 p.2.1 p.2.2).map (latNo ay.n az.n) := by
  have hp : ∀ q ∈ pathH8, q < ([ax, ay, az].map fun a => a.N).prod := by simp [hx, hy, hz, pathH8]
  have e := transformResult_eq (pathOK_grid [ax, ay, az] 0 hp) (0 : Int) fun _ => mem_transformWrites
  rw [show transformTopology (addStart 0 (gridTopo [ax, ay, az])) [pathH8] pathH8.length 0 = _ from e] at h
  obtain rfl := Option.some.inj h
  simp only [gridTopo, List.map_cons, List.map_nil, gridL3, hx, hy, hz]
  simp [asTopo, transformed, addStart, List.flatMap_map, ← List.map_eq_flatMap, latCells, pathH8, List.map_map, Function.comp_def, latCell, latNo, Axis.no, gridNo, lexNo, hx, hy, hz, Axis.pts, List.range_succ]
  intro a b c _ _ _ _ _ _ _ _ _
  have key : ∀ (z : Int) (m : Nat), z = m → z.toNat = m := fun z m h => by omega
  refine ⟨?_, ?_, ?_, ?_, ?_, ?_, ?_, ?_⟩ <;> (apply key; push_cast; ring)

end

/-! ## faces of the lattice -/

/-- The faces of a lattice: direction of the normal and the corner nearest to the origin. -/
def latFace : Nat → Nat × Nat × Nat → List (Nat × Nat × Nat)
  | 0, (x, y, z) => [(x, y, z), (x, y + 1, z), (x, y + 1, z + 1), (x, y, z + 1)]
  | 1, (x, y, z) => [(x, y, z), (x, y, z + 1), (x + 1, y, z + 1), (x + 1, y, z)]
  | _, (x, y, z) => [(x, y, z), (x + 1, y, z), (x + 1, y + 1, z), (x, y + 1, z)]

/-- The points of a lattice. -/
def InLat (a b c : Nat) (p : Nat × Nat × Nat) : Prop := p.1 ≤ a ∧ p.2.1 ≤ b ∧ p.2.2 ≤ c

theorem latNo_inj {a b c : Nat} {p q : Nat × Nat × Nat} (hp : InLat a b c p) (hq : InLat a b c q)
    (h : latNo b c p = latNo b c q) : p = q := by
  obtain ⟨x, y, z⟩ := p
  obtain ⟨x', y', z'⟩ := q
  obtain ⟨_, hy, hz⟩ := hp
  obtain ⟨_, hy', hz'⟩ := hq
  simp only [latNo] at h hy hz hy' hz'
  have e : ∀ (u v m n k : Nat), m ≤ k → n ≤ k → u * (k + 1) + m = v * (k + 1) + n → u = v ∧ m = n := by
    intro u v m n k hm hn h
    have h1 : (u * (k + 1) + m) % (k + 1) = m := by rw [Nat.mul_comm, Nat.mul_add_mod, Nat.mod_eq_of_lt (by omega)]
    have h2 : (v * (k + 1) + n) % (k + 1) = n := by rw [Nat.mul_comm, Nat.mul_add_mod, Nat.mod_eq_of_lt (by omega)]
    have h3 : m = n := by rw [← h1, h, h2]
    subst h3
    exact ⟨Nat.eq_of_mul_eq_mul_right (by omega : 0 < k + 1) (by omega), rfl⟩
  obtain ⟨h1, rfl⟩ := e _ _ _ _ _ hz hz' h
  obtain ⟨rfl, rfl⟩ := e _ _ _ _ _ hy hy' h1
  rfl

theorem latFace_perm {a b c : Nat} {d e : Nat} (hd : d < 3) (he : e < 3) {p q : Nat × Nat × Nat}
    (hp : ∀ r ∈ latFace d p, InLat a b c r) (hq : ∀ r ∈ latFace e q, InLat a b c r) :
    ((latFace d p).map (latNo b c)).Perm ((latFace e q).map (latNo b c)) ↔ d = e ∧ p = q := by
  constructor
  · intro h
    have m1 : ∀ r ∈ latFace d p, r ∈ latFace e q := by
      intro r hr
      obtain ⟨r', h1, h2⟩ := List.mem_map.1 (h.mem_iff.1 (List.mem_map_of_mem hr))
      rwa [← latNo_inj (hq _ h1) (hp _ hr) h2]
    have m2 : ∀ r ∈ latFace e q, r ∈ latFace d p := by
      intro r hr
      obtain ⟨r', h1, h2⟩ := List.mem_map.1 (h.mem_iff.2 (List.mem_map_of_mem hr))
      rwa [← latNo_inj (hp _ h1) (hq _ hr) h2]
    obtain ⟨x, y, z⟩ := p
    obtain ⟨x', y', z'⟩ := q
    clear h hp hq
    interval_cases d <;> interval_cases e <;>
    · simp only [latFace, List.forall_mem_cons] at m1 m2
      simp only [List.mem_cons, List.not_mem_nil, Prod.mk.injEq, or_false, true_and] at m1 m2 ⊢
      omega
  · rintro ⟨rfl, rfl⟩; exact .refl _

/-- The sides of a cell: direction of the normal, corner nearest to the origin, and whether the side is behind the cell. -/
def latSides (p : Nat × Nat × Nat) : List (Nat × (Nat × Nat × Nat)) :=
  [(0, p), (0, (p.1 + 1, p.2)), (1, p), (1, (p.1, p.2.1 + 1, p.2.2)), (2, p), (2, (p.1, p.2.1, p.2.2 + 1))]

/-- The faces of the cells. -/
def hexFaces (a b c : Nat) : Topo :=
  facesOf pathH8Q4 ((latCells a b c).map fun p => (latCell p.1 p.2.1 p.2.2).map (latNo b c))

theorem mem_latCells {a b c : Nat} {p : Nat × Nat × Nat} : p ∈ latCells a b c ↔ p.1 < a ∧ p.2.1 < b ∧ p.2.2 < c := by
  obtain ⟨x, y, z⟩ := p
  simp only [latCells, List.mem_flatMap, List.mem_range, List.mem_map, Prod.mk.injEq]
  constructor
  · rintro ⟨i, hi, j, hj, k, hk, rfl, rfl, rfl⟩; exact ⟨hi, hj, hk⟩
  · rintro ⟨hi, hj, hk⟩; exact ⟨x, hi, y, hj, z, hk, rfl, rfl, rfl⟩

theorem sum_latCells (a b c : Nat) (f : Nat × Nat × Nat → Nat) :
    ((latCells a b c).map f).sum = ∑ i ∈ Finset.range a, ∑ j ∈ Finset.range b, ∑ k ∈ Finset.range c, f (i, j, k) := by
  have e : ∀ (n : Nat) (g : Nat → Nat), ((List.range n).map g).sum = ∑ i ∈ Finset.range n, g i := fun n g => rfl
  have e' : ∀ {α β : Type} (l : List α) (g : α → List β) (k : β → Nat), ((l.flatMap g).map k).sum = (l.map fun x => ((g x).map k).sum).sum := by
    intro α β l g k
    induction l with
    | nil => simp
    | cons a l ih => simp [List.sum_append, ih]
  simp only [latCells, e', e, List.map_map, Function.comp_def]

/-- The number of faces with the nodes of a face of the lattice. -/
theorem occ_hexFaces {a b c d : Nat} (hd : d < 3) {p : Nat × Nat × Nat} (hp : ∀ r ∈ latFace d p, InLat a b c r) {f : List Nat}
    (hf : f.Perm ((latFace d p).map (latNo b c))) :
    occ (hexFaces a b c) f = ((latCells a b c).map fun q => (latSides q).count (d, p)).sum := by
  have key : ∀ q ∈ latCells a b c, (List.countP (fun t => f.isPerm t)
      (pathH8Q4.map fun g => g.map fun n => ((latCell q.1 q.2.1 q.2.2).map (latNo b c)).getD n 0)) = (latSides q).count (d, p) := by
    rintro ⟨x, y, z⟩ hq
    rw [mem_latCells] at hq
    simp only at hq
    have hk : ∀ (e : Nat) (r : Nat × Nat × Nat) (t : List (Nat × Nat × Nat)), e < 3 → t.Perm (latFace e r) →
        (∀ s ∈ t, InLat a b c s) → f.isPerm (t.map (latNo b c)) = ((e, r) == (d, p)) := by
      intro e r t he ht hb
      rw [Bool.eq_iff_iff, List.isPerm_iff]
      have hp' : (t.map (latNo b c)).Perm ((latFace e r).map (latNo b c)) := ht.map _
      rw [hf.congr_left, hp'.congr_right, latFace_perm hd he hp fun s hs => hb s (ht.mem_iff.2 hs)]
      simp only [beq_iff_eq, Prod.mk.injEq]
      exact ⟨fun h => ⟨h.1.symm, h.2.symm⟩, fun h => ⟨h.1.symm, h.2.symm⟩⟩
    have rev : ∀ A B C D : Nat × Nat × Nat, [A, B, C, D].Perm [A, D, C, B] := fun A B C D => (List.reverse_perm [D, C, B]).cons A
    have rot : ∀ A B C D : Nat × Nat × Nat, [A, B, C, D].Perm [B, C, D, A] := fun A B C D => List.IsRotated.perm ⟨1, rfl⟩
    have h0 := hk 0 (x, y, z) [(x, y, z), (x, y, z + 1), (x, y + 1, z + 1), (x, y + 1, z)] (by omega) (rev _ _ _ _)
      (by simp [InLat]; omega)
    have h1 := hk 0 (x + 1, y, z) [(x + 1, y, z), (x + 1, y + 1, z), (x + 1, y + 1, z + 1), (x + 1, y, z + 1)] (by omega) (.refl _)
      (by simp [InLat]; omega)
    have h2 := hk 1 (x, y, z) [(x, y, z), (x + 1, y, z), (x + 1, y, z + 1), (x, y, z + 1)] (by omega) (rev _ _ _ _)
      (by simp [InLat]; omega)
    have h3 := hk 1 (x, y + 1, z) [(x + 1, y + 1, z), (x, y + 1, z), (x, y + 1, z + 1), (x + 1, y + 1, z + 1)] (by omega) (rot _ _ _ _)
      (by simp [InLat]; omega)
    have h4 := hk 2 (x, y, z) [(x, y, z), (x, y + 1, z), (x + 1, y + 1, z), (x + 1, y, z)] (by omega) (rev _ _ _ _)
      (by simp [InLat]; omega)
    have h5 := hk 2 (x, y, z + 1) [(x, y, z + 1), (x + 1, y, z + 1), (x + 1, y + 1, z + 1), (x, y + 1, z + 1)] (by omega) (.refl _)
      (by simp [InLat]; omega)
    simp only [List.map_cons, List.map_nil] at h0 h1 h2 h3 h4 h5
    simp only [pathH8Q4, latCell, latSides, List.map_cons, List.map_nil, List.getD_cons_zero, List.getD_cons_succ, List.countP_cons,
      List.countP_nil, List.count_cons, List.count_nil, h0, h1, h2, h3, h4, h5]
  rw [occ, hexFaces, facesOf, List.countP_flatMap, List.map_map]
  exact congrArg _ (List.map_congr_left key)

theorem latCells_nodup (a b c : Nat) : (latCells a b c).Nodup := by
  have := gridL_nodup (ds := [a, b, c]) (f := fun is => (is.getD 0 0, is.getD 1 0, is.getD 2 0)) (by
    intro xs ys hx hy h
    obtain ⟨x, y, z, rfl, _⟩ := within3.1 hx
    obtain ⟨x', y', z', rfl, _⟩ := within3.1 hy
    simp at h
    simp [h])
  rw [gridL3] at this
  simpa using this

theorem sum_indicator {l : List (Nat × Nat × Nat)} (hl : l.Nodup) (p : Nat × Nat × Nat) :
    (l.map fun q => if q = p then 1 else 0).sum = if p ∈ l then 1 else 0 := by
  induction l with
  | nil => simp
  | cons a l ih =>
    obtain ⟨h1, h2⟩ := List.nodup_cons.1 hl
    rw [List.map_cons, List.sum_cons, ih h2]
    by_cases h : a = p
    · subst h; simp [h1]
    · simp [h, Ne.symm h]

theorem sum_indicator' {l : List (Nat × Nat × Nat)} (hl : l.Nodup) {P : Nat × Nat × Nat → Prop} [DecidablePred P] {Q : Prop} [Decidable Q]
    (p : Nat × Nat × Nat) (h : ∀ q ∈ l, P q ↔ q = p ∧ Q) :
    (l.map fun q => if P q then 1 else 0).sum = if p ∈ l ∧ Q then 1 else 0 := by
  by_cases hQ : Q
  · rw [List.map_congr_left (g := fun q => if q = p then 1 else 0) fun q hq => by simp [h q hq, hQ], sum_indicator hl]
    simp [hQ]
  · rw [List.map_congr_left (g := fun _ => 0) fun q hq => by simp [h q hq, hQ]]
    simp [hQ]

/-- A face belongs to the cell behind and to the cell in front of it. -/
theorem count_sides {a b c d : Nat} (hd : d < 3) {x y z : Nat} (hp : ∀ r ∈ latFace d (x, y, z), InLat a b c r) :
    ((latCells a b c).map fun q => (latSides q).count (d, (x, y, z))).sum =
      (if [x, y, z].getD d 0 < [a, b, c].getD d 0 then 1 else 0) + (if 0 < [x, y, z].getD d 0 then 1 else 0) := by
  have hn := latCells_nodup a b c
  interval_cases d
  · simp only [latFace, List.forall_mem_cons, InLat] at hp
    have e : ∀ q : Nat × Nat × Nat, (latSides q).count (0, (x, y, z)) =
        (if q = (x, y, z) ∧ True then 1 else 0) + (if (q.1 + 1, q.2) = (x, y, z) then 1 else 0) := by
      intro q; simp [latSides, List.count_cons]; exact Nat.add_comm _ _
    simp only [e, List.sum_map_add]
    rw [sum_indicator' hn (x, y, z) (fun q _ => Iff.rfl), sum_indicator' hn (Q := 0 < x) (x - 1, y, z) (fun q _ => by
      obtain ⟨i, j, k⟩ := q; simp only [Prod.mk.injEq]; omega)]
    simp only [mem_latCells, List.getD_cons_zero, and_true]
    congr 1 <;> (apply if_congr _ rfl rfl; omega)
  · simp only [latFace, List.forall_mem_cons, InLat] at hp
    have e : ∀ q : Nat × Nat × Nat, (latSides q).count (1, (x, y, z)) =
        (if q = (x, y, z) ∧ True then 1 else 0) + (if (q.1, q.2.1 + 1, q.2.2) = (x, y, z) then 1 else 0) := by
      intro q; simp [latSides, List.count_cons]; exact Nat.add_comm _ _
    simp only [e, List.sum_map_add]
    rw [sum_indicator' hn (x, y, z) (fun q _ => Iff.rfl), sum_indicator' hn (Q := 0 < y) (x, y - 1, z) (fun q _ => by
      obtain ⟨i, j, k⟩ := q; simp only [Prod.mk.injEq]; omega)]
    simp only [mem_latCells, List.getD_cons_zero, List.getD_cons_succ, and_true]
    congr 1 <;> (apply if_congr _ rfl rfl; omega)
  · simp only [latFace, List.forall_mem_cons, InLat] at hp
    have e : ∀ q : Nat × Nat × Nat, (latSides q).count (2, (x, y, z)) =
        (if q = (x, y, z) ∧ True then 1 else 0) + (if (q.1, q.2.1, q.2.2 + 1) = (x, y, z) then 1 else 0) := by
      intro q; simp [latSides, List.count_cons]; exact Nat.add_comm _ _
    simp only [e, List.sum_map_add]
    rw [sum_indicator' hn (x, y, z) (fun q _ => Iff.rfl), sum_indicator' hn (Q := 0 < z) (x, y, z - 1) (fun q _ => by
      obtain ⟨i, j, k⟩ := q; simp only [Prod.mk.injEq]; omega)]
    simp only [mem_latCells, List.getD_cons_zero, List.getD_cons_succ, and_true]
    congr 1 <;> (apply if_congr _ rfl rfl; omega)

/-- The faces of the cell `q` in the order of the table of faces, with the points in front of or behind. -/
theorem mem_hexFaces {a b c : Nat} {f : List Nat} : f ∈ hexFaces a b c ↔ ∃ q ∈ latCells a b c,
    f = [q, (q.1, q.2.1, q.2.2 + 1), (q.1, q.2.1 + 1, q.2.2 + 1), (q.1, q.2.1 + 1, q.2.2)].map (latNo b c) ∨
    f = (latFace 0 (q.1 + 1, q.2)).map (latNo b c) ∨
    f = [q, (q.1 + 1, q.2.1, q.2.2), (q.1 + 1, q.2.1, q.2.2 + 1), (q.1, q.2.1, q.2.2 + 1)].map (latNo b c) ∨
    f = [(q.1 + 1, q.2.1 + 1, q.2.2), (q.1, q.2.1 + 1, q.2.2), (q.1, q.2.1 + 1, q.2.2 + 1), (q.1 + 1, q.2.1 + 1, q.2.2 + 1)].map (latNo b c) ∨
    f = [q, (q.1, q.2.1 + 1, q.2.2), (q.1 + 1, q.2.1 + 1, q.2.2), (q.1 + 1, q.2.1, q.2.2)].map (latNo b c) ∨
    f = (latFace 2 (q.1, q.2.1, q.2.2 + 1)).map (latNo b c) := by
  simp [hexFaces, facesOf, pathH8Q4, latCell, latFace]

/-- Number of the plane of a face, and the number of planes in its direction. -/
def latLevel (d : Nat) (p : Nat × Nat × Nat) : Nat := [p.1, p.2.1, p.2.2].getD d 0

/-- A face of a cell is a face of the lattice, in one of the two directions. -/
theorem hexFaces_class {a b c : Nat} {f : List Nat} (h : f ∈ hexFaces a b c) :
    ∃ d < 3, ∃ p, (∀ r ∈ latFace d p, InLat a b c r) ∧
      ((f ~r (latFace d p).map (latNo b c) ∧ 0 < latLevel d p) ∨
        (f ~r ((latFace d p).map (latNo b c)).reverse ∧ latLevel d p < latLevel d (a, b, c))) := by
  obtain ⟨⟨x, y, z⟩, hq, h⟩ := mem_hexFaces.1 h
  rw [mem_latCells] at hq
  simp only at hq
  have rev : ∀ A B C D : Nat × Nat × Nat, [A, B, C, D].map (latNo b c) ~r (([A, D, C, B].map (latNo b c)).reverse) :=
    fun A B C D => ⟨1, rfl⟩
  rcases h with h | h | h | h | h | h
  · exact ⟨0, by omega, (x, y, z), by simp [latFace, InLat]; omega, .inr ⟨h ▸ rev _ _ _ _, by simp [latLevel]; omega⟩⟩
  · exact ⟨0, by omega, (x + 1, y, z), by simp [latFace, InLat]; omega, .inl ⟨h ▸ .refl _, by simp [latLevel]⟩⟩
  · exact ⟨1, by omega, (x, y, z), by simp [latFace, InLat]; omega, .inr ⟨h ▸ rev _ _ _ _, by simp [latLevel]; omega⟩⟩
  · exact ⟨1, by omega, (x, y + 1, z), by simp [latFace, InLat]; omega, .inl ⟨h ▸ ⟨1, rfl⟩, by simp [latLevel]⟩⟩
  · exact ⟨2, by omega, (x, y, z), by simp [latFace, InLat]; omega, .inr ⟨h ▸ rev _ _ _ _, by simp [latLevel]; omega⟩⟩
  · exact ⟨2, by omega, (x, y, z + 1), by simp [latFace, InLat]; omega, .inl ⟨h ▸ .refl _, by simp [latLevel]⟩⟩

/-- The cell in front of a face lists it in the first direction, -/
theorem hexFaces_front {a b c d : Nat} (hd : d < 3) {p : Nat × Nat × Nat} (hp : ∀ r ∈ latFace d p, InLat a b c r)
    (h : 0 < latLevel d p) : ∃ g ∈ hexFaces a b c, g ~r (latFace d p).map (latNo b c) := by
  obtain ⟨x, y, z⟩ := p
  interval_cases d <;> simp only [latFace, List.forall_mem_cons, InLat] at hp <;> simp [latLevel] at h
  · obtain ⟨x, rfl⟩ : ∃ i, x = i + 1 := ⟨x - 1, by omega⟩
    exact ⟨_, mem_hexFaces.2 ⟨(x, y, z), by rw [mem_latCells]; dsimp only; omega, .inr (.inl rfl)⟩, .refl _⟩
  · obtain ⟨y, rfl⟩ : ∃ i, y = i + 1 := ⟨y - 1, by omega⟩
    exact ⟨_, mem_hexFaces.2 ⟨(x, y, z), by rw [mem_latCells]; dsimp only; omega, .inr (.inr (.inr (.inl rfl)))⟩, ⟨1, rfl⟩⟩
  · obtain ⟨z, rfl⟩ : ∃ i, z = i + 1 := ⟨z - 1, by omega⟩
    exact ⟨_, mem_hexFaces.2 ⟨(x, y, z), by rw [mem_latCells]; dsimp only; omega, .inr (.inr (.inr (.inr (.inr rfl))))⟩, .refl _⟩

/-- the cell behind it in the other. -/
theorem hexFaces_behind {a b c d : Nat} (hd : d < 3) {p : Nat × Nat × Nat} (hp : ∀ r ∈ latFace d p, InLat a b c r)
    (h : latLevel d p < latLevel d (a, b, c)) : ∃ g ∈ hexFaces a b c, g ~r ((latFace d p).map (latNo b c)).reverse := by
  obtain ⟨x, y, z⟩ := p
  have rev : ∀ A B C D : Nat × Nat × Nat, [A, B, C, D].map (latNo b c) ~r (([A, D, C, B].map (latNo b c)).reverse) :=
    fun A B C D => ⟨1, rfl⟩
  interval_cases d <;> simp only [latFace, List.forall_mem_cons, InLat] at hp <;> simp [latLevel] at h
  · exact ⟨_, mem_hexFaces.2 ⟨(x, y, z), by rw [mem_latCells]; dsimp only; omega, .inl rfl⟩, rev _ _ _ _⟩
  · exact ⟨_, mem_hexFaces.2 ⟨(x, y, z), by rw [mem_latCells]; dsimp only; omega, .inr (.inr (.inl rfl))⟩, rev _ _ _ _⟩
  · exact ⟨_, mem_hexFaces.2 ⟨(x, y, z), by rw [mem_latCells]; dsimp only; omega, .inr (.inr (.inr (.inr (.inl rfl))))⟩, rev _ _ _ _⟩

theorem hexFaces_occ {a b c d : Nat} (hd : d < 3) {p : Nat × Nat × Nat} (hp : ∀ r ∈ latFace d p, InLat a b c r) {f : List Nat}
    (hf : f.Perm ((latFace d p).map (latNo b c))) :
    occ (hexFaces a b c) f = (if latLevel d p < latLevel d (a, b, c) then 1 else 0) + (if 0 < latLevel d p then 1 else 0) :=
  (occ_hexFaces hd hp hf).trans (count_sides hd hp)

theorem length_hexFaces (a b c : Nat) : (hexFaces a b c).length = 6 * (a * b * c) := by
  have : (latCells a b c).length = a * b * c := by
    simp [latCells, List.length_flatMap, Nat.mul_assoc]
  rw [hexFaces, facesOf, List.length_flatMap]
  simp [pathH8Q4, this, Nat.mul_comm, Function.comp_def]

/-- The number of faces on the boundary. -/
theorem count_outer {a b c : Nat} (ha : 1 ≤ a) (hb : 1 ≤ b) (hc : 1 ≤ c) :
    ((hexFaces a b c).countP fun f => occ (hexFaces a b c) f = 1) = 2 * (a * b + b * c + c * a) := by
  have key : ∀ q ∈ latCells a b c, (List.countP (fun f => decide (occ (hexFaces a b c) f = 1))
      (pathH8Q4.map fun g => g.map fun n => ((latCell q.1 q.2.1 q.2.2).map (latNo b c)).getD n 0)) =
      (if q.1 = 0 then 1 else 0) + (if q.1 = a - 1 then 1 else 0) + (if q.2.1 = 0 then 1 else 0) + (if q.2.1 = b - 1 then 1 else 0) +
      (if q.2.2 = 0 then 1 else 0) + (if q.2.2 = c - 1 then 1 else 0) := by
    rintro ⟨x, y, z⟩ hq
    rw [mem_latCells] at hq
    simp only at hq
    have rev : ∀ A B C D : Nat × Nat × Nat, [A, B, C, D].Perm [A, D, C, B] := fun A B C D => (List.reverse_perm [D, C, B]).cons A
    have rot : ∀ A B C D : Nat × Nat × Nat, [A, B, C, D].Perm [B, C, D, A] := fun A B C D => List.IsRotated.perm ⟨1, rfl⟩
    have h0 := hexFaces_occ (a := a) (b := b) (c := c) (d := 0) (by omega) (p := (x, y, z)) (by simp [latFace, InLat]; omega)
      ((rev (x, y, z) (x, y, z + 1) (x, y + 1, z + 1) (x, y + 1, z)).map (latNo b c))
    have h1 := hexFaces_occ (a := a) (b := b) (c := c) (d := 0) (by omega) (p := (x + 1, y, z)) (by simp [latFace, InLat]; omega) (.refl _)
    have h2 := hexFaces_occ (a := a) (b := b) (c := c) (d := 1) (by omega) (p := (x, y, z)) (by simp [latFace, InLat]; omega)
      ((rev (x, y, z) (x + 1, y, z) (x + 1, y, z + 1) (x, y, z + 1)).map (latNo b c))
    have h3 := hexFaces_occ (a := a) (b := b) (c := c) (d := 1) (by omega) (p := (x, y + 1, z)) (by simp [latFace, InLat]; omega)
      ((rot (x + 1, y + 1, z) (x, y + 1, z) (x, y + 1, z + 1) (x + 1, y + 1, z + 1)).map (latNo b c))
    have h4 := hexFaces_occ (a := a) (b := b) (c := c) (d := 2) (by omega) (p := (x, y, z)) (by simp [latFace, InLat]; omega)
      ((rev (x, y, z) (x, y + 1, z) (x + 1, y + 1, z) (x + 1, y, z)).map (latNo b c))
    have h5 := hexFaces_occ (a := a) (b := b) (c := c) (d := 2) (by omega) (p := (x, y, z + 1)) (by simp [latFace, InLat]; omega) (.refl _)
    simp only [List.map_cons, List.map_nil, latFace, latLevel, List.getD_cons_zero, List.getD_cons_succ] at h0 h1 h2 h3 h4 h5
    simp only [pathH8Q4, latCell, List.map_cons, List.map_nil, List.getD_cons_zero, List.getD_cons_succ, List.countP_cons,
      List.countP_nil, h0, h1, h2, h3, h4, h5, decide_eq_true_eq]
    have i0 : (if x < a then 1 else 0) + (if 0 < x then 1 else 0) = 1 ↔ x = 0 := by split <;> split <;> omega
    have i1 : (if x + 1 < a then 1 else 0) + (if 0 < x + 1 then 1 else 0) = 1 ↔ x = a - 1 := by split <;> split <;> omega
    have i2 : (if y < b then 1 else 0) + (if 0 < y then 1 else 0) = 1 ↔ y = 0 := by split <;> split <;> omega
    have i3 : (if y + 1 < b then 1 else 0) + (if 0 < y + 1 then 1 else 0) = 1 ↔ y = b - 1 := by split <;> split <;> omega
    have i4 : (if z < c then 1 else 0) + (if 0 < z then 1 else 0) = 1 ↔ z = 0 := by split <;> split <;> omega
    have i5 : (if z + 1 < c then 1 else 0) + (if 0 < z + 1 then 1 else 0) = 1 ↔ z = c - 1 := by split <;> split <;> omega
    simp only [i0, i1, i2, i3, i4, i5]
    omega
  have e : ∀ P : List Nat → Bool, (hexFaces a b c).countP P = ((latCells a b c).map fun q => List.countP P
      (pathH8Q4.map fun g => g.map fun n => ((latCell q.1 q.2.1 q.2.2).map (latNo b c)).getD n 0)).sum := by
    intro P
    rw [hexFaces, facesOf, List.countP_flatMap, List.map_map]
    rfl
  rw [e, List.map_congr_left key, sum_latCells]
  have n1 : 0 < a := ha
  have n2 : 0 < b := hb
  have n3 : 0 < c := hc
  change (∑ i ∈ Finset.range a, ∑ j ∈ Finset.range b, ∑ k ∈ Finset.range c, ((if i = 0 then 1 else 0) + (if i = a - 1 then 1 else 0) +
    (if j = 0 then 1 else 0) + (if j = b - 1 then 1 else 0) + (if k = 0 then 1 else 0) + (if k = c - 1 then 1 else 0))) = _
  have m1 : a - 1 < a := Nat.sub_lt ha Nat.one_pos
  have m2 : b - 1 < b := Nat.sub_lt hb Nat.one_pos
  have m3 : c - 1 < c := Nat.sub_lt hc Nat.one_pos
  simp only [Finset.sum_add_distrib, Finset.sum_ite_eq', Finset.sum_const, Finset.mem_range, Finset.card_range, smul_eq_mul, mul_ite, mul_one,
    mul_zero, n1, n2, n3, m1, m2, m3, if_true]
  ring

/-! ## faces of `gridH8` -/

section
variable {K : Type} [Field K]

/-- All points of the face have the same coordinate as one of the corners `lo`, `hi` of the box in some direction. -/
def OnBox (C : List (List K)) (lo hi : List K) (f : List Nat) : Prop :=
  ∃ (d : Nat) (e : K), (lo[d]? = some e ∨ hi[d]? = some e) ∧ ∀ n ∈ f, ∃ r, C[n]? = some r ∧ r[d]? = some e

/-- The faces of a mesh of the box between `lo` and `hi`: those on the boundary of the box belong to one cell, the others to two cells that
list them in opposite directions. -/
def FacesOfBox (C : List (List K)) (lo hi : List K) (F : Topo) : Prop :=
  ∀ f ∈ F, (OnBox C lo hi f ∧ occ F f = 1) ∨ (¬ OnBox C lo hi f ∧ occ F f = 2 ∧ ∃ g ∈ F, g ~r f.reverse)

/-- The ends of the intervals are different. -/
def Axis.Sep (a : Axis K) : Prop := ∀ i j, i ≤ a.n → j ≤ a.n → a.b i = a.b j → i = j

theorem latCoords (ax ay az : Axis K) (hx : ax.N = 2) (hy : ay.N = 2) (hz : az.N = 2) {p : Nat × Nat × Nat} (hp : InLat ax.n ay.n az.n p) :
    (gridCoords [ax, ay, az])[latNo ay.n az.n p]? = some [ax.b p.1, ay.b p.2.1, az.b p.2.2] := by
  have hw : Within [p.1, p.2.1, p.2.2] ([ax, ay, az].map Axis.pts) := by
    obtain ⟨h1, h2, h3⟩ := hp
    simp [Within, Axis.pts, hx, hy, hz]; omega
  have := gridL_get (f := gridVal [ax, ay, az]) hw
  rw [gridCoords, show latNo ay.n az.n p = lexNo [p.1, p.2.1, p.2.2] ([ax, ay, az].map Axis.pts) by
    simp [lexNo, latNo, Axis.pts, hx, hy, hz]; ring, this]
  simp [gridVal, Axis.val, Axis.pos, hx, hy, hz, Nat.mod_one]

theorem onBox_iff (ax ay az : Axis K) (hx : ax.N = 2) (hy : ay.N = 2) (hz : az.N = 2) (sx : ax.Sep) (sy : ay.Sep) (sz : az.Sep)
    {d : Nat} (hd : d < 3) {p : Nat × Nat × Nat} (hp : ∀ r ∈ latFace d p, InLat ax.n ay.n az.n r) {f : List Nat}
    (hf : f.Perm ((latFace d p).map (latNo ay.n az.n))) :
    OnBox (gridCoords [ax, ay, az]) [ax.b 0, ay.b 0, az.b 0] [ax.b ax.n, ay.b ay.n, az.b az.n] f ↔
      latLevel d p = 0 ∨ latLevel d p = latLevel d (ax.n, ay.n, az.n) := by
  have e : ∀ (k : Nat) (v : K), (∀ n ∈ f, ∃ r, (gridCoords [ax, ay, az])[n]? = some r ∧ r[k]? = some v) ↔
      ∀ r ∈ latFace d p, [ax.b r.1, ay.b r.2.1, az.b r.2.2][k]? = some v := by
    intro k v
    constructor
    · intro h r hr
      obtain ⟨row, h1, h2⟩ := h _ (hf.mem_iff.2 (List.mem_map_of_mem hr))
      rw [latCoords ax ay az hx hy hz (hp r hr)] at h1
      rw [Option.some.inj h1, h2]
    · intro h n hn
      obtain ⟨r, hr, rfl⟩ := List.mem_map.1 (hf.mem_iff.1 hn)
      exact ⟨_, latCoords ax ay az hx hy hz (hp r hr), h r hr⟩
  obtain ⟨x, y, z⟩ := p
  simp only [OnBox, e]
  constructor
  · rintro ⟨k, v, h1, h2⟩
    have hk : k < 3 := by
      by_contra hk
      rw [List.getElem?_eq_none (by simp; omega), List.getElem?_eq_none (by simp; omega)] at h1
      simp at h1
    interval_cases d <;> interval_cases k <;>
      simp only [latFace, List.forall_mem_cons, InLat, List.getElem?_cons_zero, List.getElem?_cons_succ, Option.some.injEq] at hp h1 h2 <;>
      simp only [latLevel, List.getD_cons_zero, List.getD_cons_succ]
    · exact h1.imp (fun h => sx _ _ (by omega) (by omega) (h2.1.trans h.symm)) (fun h => sx _ _ (by omega) (by omega) (h2.1.trans h.symm))
    · have := sy _ _ (by omega) (by omega) (h2.1.trans h2.2.1.symm); omega
    · have := sz _ _ (by omega) (by omega) (h2.1.trans h2.2.2.2.1.symm); omega
    · have := sx _ _ (by omega) (by omega) (h2.1.trans h2.2.2.2.1.symm); omega
    · exact h1.imp (fun h => sy _ _ (by omega) (by omega) (h2.1.trans h.symm)) (fun h => sy _ _ (by omega) (by omega) (h2.1.trans h.symm))
    · have := sz _ _ (by omega) (by omega) (h2.1.trans h2.2.1.symm); omega
    · have := sx _ _ (by omega) (by omega) (h2.1.trans h2.2.1.symm); omega
    · have := sy _ _ (by omega) (by omega) (h2.1.trans h2.2.2.2.1.symm); omega
    · exact h1.imp (fun h => sz _ _ (by omega) (by omega) (h2.1.trans h.symm)) (fun h => sz _ _ (by omega) (by omega) (h2.1.trans h.symm))
  · intro h
    interval_cases d <;> simp only [latLevel, List.getD_cons_zero, List.getD_cons_succ] at h
    · exact ⟨0, ax.b x, by rcases h with rfl | rfl <;> simp, by simp [latFace]⟩
    · exact ⟨1, ay.b y, by rcases h with rfl | rfl <;> simp, by simp [latFace]⟩
    · exact ⟨2, az.b z, by rcases h with rfl | rfl <;> simp, by simp [latFace]⟩

theorem facesOfBox_grid (ax ay az : Axis K) (hx : ax.N = 2) (hy : ay.N = 2) (hz : az.N = 2) (sx : ax.Sep) (sy : ay.Sep) (sz : az.Sep)
    (n1 : 1 ≤ ax.n) (n2 : 1 ≤ ay.n) (n3 : 1 ≤ az.n) :
    FacesOfBox (gridCoords [ax, ay, az]) [ax.b 0, ay.b 0, az.b 0] [ax.b ax.n, ay.b ay.n, az.b az.n] (hexFaces ax.n ay.n az.n) := by
  intro f hf
  obtain ⟨d, hd, p, hp, h⟩ := hexFaces_class hf
  have hperm : f.Perm ((latFace d p).map (latNo ay.n az.n)) := by
    rcases h with ⟨h, _⟩ | ⟨h, _⟩
    · exact h.perm
    · exact h.perm.trans (List.reverse_perm _)
  have ho := hexFaces_occ hd hp hperm
  have hb := onBox_iff ax ay az hx hy hz sx sy sz hd hp hperm
  have hl : 1 ≤ latLevel d (ax.n, ay.n, az.n) := by interval_cases d <;> simpa [latLevel]
  have hle : latLevel d p ≤ latLevel d (ax.n, ay.n, az.n) := by
    have h0 : p ∈ latFace d p := by interval_cases d <;> simp [latFace]
    have := hp p h0
    interval_cases d <;> simp only [latLevel, List.getD_cons_zero, List.getD_cons_succ]
    exacts [this.1, this.2.1, this.2.2]
  by_cases hs : latLevel d p = 0 ∨ latLevel d p = latLevel d (ax.n, ay.n, az.n)
  · left
    refine ⟨hb.2 hs, ?_⟩
    rw [ho]
    rcases hs with hs | hs
    · rw [if_pos (by omega), if_neg (by omega)]
    · rw [if_neg (by omega), if_pos (by omega)]
  · right
    refine ⟨fun h => hs (hb.1 h), ?_, ?_⟩
    · rw [ho, if_pos (by omega), if_pos (by omega)]
    · rcases h with ⟨h, _⟩ | ⟨h, _⟩
      · obtain ⟨g, hg, h'⟩ := hexFaces_behind hd hp (by omega)
        exact ⟨g, hg, h'.trans h.reverse.symm⟩
      · obtain ⟨g, hg, h'⟩ := hexFaces_front hd hp (by omega)
        refine ⟨g, hg, h'.trans ?_⟩
        have := h.reverse.symm
        rwa [List.reverse_reverse] at this

/-! ## faces up to the order of their nodes -/

omit [Field K] in
theorem sortRow_eq {s t : List Nat} : sortRow s = sortRow t ↔ s.Perm t := by
  constructor
  · intro h
    exact (List.perm_insertionSort _ s).symm.trans ((List.Perm.of_eq h).trans (List.perm_insertionSort _ t))
  · intro h
    exact List.Perm.eq_of_pairwise (fun x y _ _ h h' => le_antisymm h h') (List.pairwise_insertionSort _ s) (List.pairwise_insertionSort _ t)
      ((List.perm_insertionSort _ s).trans (h.trans (List.perm_insertionSort _ t).symm))

theorem count_sortRow (F : Topo) (s : List Nat) : (F.map sortRow).count (sortRow s) = occ F s := by
  rw [List.count, List.countP_map, occ]
  apply List.countP_congr
  intro t _
  simp only [Function.comp_apply, beq_iff_eq, List.isPerm_iff]
  rw [eq_comm, sortRow_eq]

theorem occ_congr (F : Topo) {s t : List Nat} (h : s.Perm t) : occ F s = occ F t := by
  rw [← count_sortRow, ← count_sortRow, sortRow_eq.2 h]

/-- The number of different faces, if every face belongs to one or two cells. -/
theorem count_unique {F : Topo} (h : ∀ f ∈ F, occ F f = 1 ∨ occ F f = 2) :
    2 * (npUnique (F.map sortRow)).length = F.length + F.countP fun f => occ F f = 1 := by
  have hc : ∀ (x : List Nat) (L : Topo), @List.count _ instBEqOfDecidableEq x L = L.count x := by
    intro x L
    unfold List.count
    apply List.countP_congr
    intro y _
    simp
  set G := F.map sortRow with hG
  have h1 : ∀ x ∈ G, G.count x = 1 ∨ G.count x = 2 := by
    intro x hx
    obtain ⟨f, hf, rfl⟩ := List.mem_map.1 hx
    rw [hG, count_sortRow]; exact h f hf
  have h2 : F.countP (fun f => occ F f = 1) = G.countP fun x => G.count x = 1 := by
    rw [hG, List.countP_map]
    apply List.countP_congr
    intro f _
    simp [count_sortRow]
  have h3 : F.length = G.length := by simp [hG]
  have h4 : (npUnique G).length = G.toFinset.card := by
    rw [← List.toFinset_card_of_nodup (nodup_npUnique G)]
    congr 1
    ext x
    simp [mem_npUnique]
  have h5 : G.countP (fun x => G.count x = 1) = ∑ x ∈ G.toFinset, if G.count x = 1 then 1 else 0 := by
    rw [List.countP_eq_length_filter, ← List.sum_toFinset_count_eq_length, List.toFinset_filter, Finset.sum_filter]
    apply Finset.sum_congr rfl
    intro x _
    by_cases hx : G.count x = 1
    · rw [hc, List.count_filter (by simpa using hx)]; simp [hx]
    · simp [hx]
  rw [h2, h3, h4, h5, ← List.sum_toFinset_count_eq_length, ← Finset.sum_add_distrib, Finset.card_eq_sum_ones, Finset.mul_sum]
  apply Finset.sum_congr rfl
  intro x hx
  rw [hc]
  rcases h1 x (List.mem_toFinset.1 hx) with h | h <;> simp [h]

/-- A skin has as many polygons as there are faces of one cell only. -/
theorem length_skin {F P : Topo} (h : IsSkin F P) : P.length = F.countP fun f => occ F f = 1 := by
  have hp : (P.map sortRow).Perm ((F.filter fun f => occ F f = 1).map sortRow) := by
    rw [List.perm_iff_count]
    intro x
    by_cases hx : sortRow x = x
    · rw [← hx, count_sortRow, h x, count_sortRow, occ, occ, List.countP_filter, ← occ]
      split
      · rename_i hx1
        refine hx1.symm.trans ?_
        rw [occ]
        apply List.countP_congr
        intro t _
        simp only [Bool.and_eq_true, List.isPerm_iff, decide_eq_true_eq]
        exact ⟨fun ht => ⟨ht, by rw [← occ_congr F ht]; exact hx1⟩, fun ht => ht.1⟩
      · rename_i hx1
        rw [eq_comm, List.countP_eq_zero]
        intro t _ ht
        simp only [Bool.and_eq_true, List.isPerm_iff, decide_eq_true_eq] at ht
        exact hx1 (by rw [occ_congr F ht.1]; exact ht.2)
    · have : ∀ L : Topo, (L.map sortRow).count x = 0 := by
        intro L
        rw [List.count_eq_zero]
        intro hm
        obtain ⟨t, _, rfl⟩ := List.mem_map.1 hm
        exact hx (sortRow_eq.2 (List.perm_insertionSort _ t))
      rw [this, this]
  have := hp.length_eq
  simpa [List.countP_eq_length_filter] using this

/-- The triangles of the skin of a mesh with quadrilateral faces. -/
theorem skinTri_quads {F T : Topo} (hF : ∀ f ∈ F, f.length = 4) (h : IsSkinTri F T) :
    T.length = 2 * (F.countP fun f => occ F f = 1) ∧ ∀ t ∈ T, ∃ f ∈ F, occ F f = 1 ∧ t ⊆ f := by
  obtain ⟨polys, parts, h1, h2, h3⟩ := h
  have hmem : ∀ p ∈ polys, ∃ f ∈ F, occ F f = 1 ∧ p.Perm f := by
    intro p hp
    have h0 : 0 < occ polys p := occ_pos.2 ⟨p, hp, .refl _⟩
    have h4 : occ F p = 1 := by
      by_contra hc
      rw [h1 p, if_neg hc] at h0
      omega
    obtain ⟨f, hf, hpf⟩ := occ_pos.1 (by omega : 0 < occ F p)
    exact ⟨f, hf, by rw [← occ_congr F hpf]; exact h4, hpf⟩
  constructor
  · rw [h3.length_eq, ← length_skin h1]
    clear h3 h1
    induction h2 with
    | nil => simp
    | @cons p part ps parts hp _ ih =>
      rw [List.flatten_cons, List.length_append, ih fun q hq => hmem q (List.mem_cons_of_mem _ hq), List.length_cons]
      obtain ⟨f, hf, _, hpf⟩ := hmem p List.mem_cons_self
      have hl : p.length = 4 := by rw [hpf.length_eq]; exact hF f hf
      cases hp with
      | tri => simp at hl
      | quad => simp; ring
      | quad' => simp; ring
  · intro t ht
    obtain ⟨part, hpart, ht⟩ := List.mem_flatten.1 (h3.mem_iff.1 ht)
    obtain ⟨k, hk, rfl⟩ := List.getElem_of_mem hpart
    have hk' : k < polys.length := by rw [h2.length_eq]; exact hk
    have h4 := (List.forall₂_iff_get.1 h2).2 k hk' hk
    obtain ⟨f, hf, h5, h6⟩ := hmem polys[k] (List.getElem_mem hk')
    refine ⟨f, hf, h5, fun n hn => h6.mem_iff.1 ?_⟩
    simp only [List.get_eq_getElem] at h4
    revert hn ht
    generalize polys[k] = p at h4 ⊢
    generalize parts[k] = part at h4 ⊢
    intro ht hn
    cases h4 <;> simp at ht <;> (try rcases ht with rfl | rfl) <;> simp at hn ⊢ <;> omega

/-- What is claimed of the faces `F` of a mesh with points `C` of the box between `lo` and `hi`, with `a`, `b`, `c` cells in the three
directions. -/
structure BoxFaces (C : List (List K)) (lo hi : List K) (a b c : Nat) (F : Topo) : Prop where
  total : F.length = 6 * (a * b * c)
  sides : FacesOfBox C lo hi F
  outer : (F.countP fun f => occ F f = 1) = 2 * (a * b + b * c + c * a)
  distinct : ∀ t : List (List (List Nat)), t.flatten = F → (uniqueTopoData t).1.length = 3 * (a * b * c) + (a * b + b * c + c * a)
  skin : ∀ T, IsSkinTri F T → T.length = 4 * (a * b + b * c + c * a) ∧ ∀ t ∈ T, OnBox C lo hi t

theorem boxFaces_grid (ax ay az : Axis K) (hx : ax.N = 2) (hy : ay.N = 2) (hz : az.N = 2) (sx : ax.Sep) (sy : ay.Sep) (sz : az.Sep)
    (n1 : 1 ≤ ax.n) (n2 : 1 ≤ ay.n) (n3 : 1 ≤ az.n) :
    BoxFaces (gridCoords [ax, ay, az]) [ax.b 0, ay.b 0, az.b 0] [ax.b ax.n, ay.b ay.n, az.b az.n] ax.n ay.n az.n
      (hexFaces ax.n ay.n az.n) := by
  have hs := facesOfBox_grid ax ay az hx hy hz sx sy sz n1 n2 n3
  have ho := count_outer n1 n2 n3
  have hl := length_hexFaces ax.n ay.n az.n
  refine ⟨hl, hs, ho, ?_, ?_⟩
  · intro t ht
    have := count_unique (F := hexFaces ax.n ay.n az.n) fun f hf => (hs f hf).imp (·.2) (·.2.1)
    rw [show (uniqueTopoData t).1 = npUnique (t.flatten.map sortRow) from rfl, ht]
    rw [hl, ho] at this
    omega
  · intro T hT
    obtain ⟨h1, h2⟩ := skinTri_quads (fun f hf => by
      obtain ⟨q, _, h⟩ := mem_hexFaces.1 hf
      rcases h with rfl | rfl | rfl | rfl | rfl | rfl <;> rfl) hT
    refine ⟨by rw [h1, ho]; ring, ?_⟩
    intro t ht
    obtain ⟨f, hf, h3, h4⟩ := h2 t ht
    rcases hs f hf with h | h
    · obtain ⟨⟨d, e, h5, h6⟩, _⟩ := h
      exact ⟨d, e, h5, fun n hn => h6 n (h4 hn)⟩
    · omega

variable [CharZero K]

theorem uniAxis_sep {l : K} {n N : Nat} {s : K} (hl : l ≠ 0) (hn : 1 ≤ n) : (uniAxis l n N s).Sep := by
  intro i j _ _ h
  have h0 : (n : K) ≠ 0 := by exact_mod_cast (by omega : n ≠ 0)
  simp only [uniAxis, add_right_inj] at h
  exact_mod_cast mul_left_cancel₀ (div_ne_zero hl h0) h

omit [CharZero K] in
theorem binAxis_sep {bins : List K} {N : Nat} {s : K} (hb : bins.Nodup) (hn : 2 ≤ bins.length) : (binAxis bins N s).Sep := by
  intro i j hi hj h
  simp only [binAxis, add_right_inj] at h hi hj
  have hi' : i < bins.length := by omega
  have hj' : j < bins.length := by omega
  rw [List.getD_eq_getElem?_getD, List.getD_eq_getElem?_getD, List.getElem?_eq_getElem hi', List.getElem?_eq_getElem hj'] at h
  exact (List.Nodup.getElem_inj_iff hb).1 h

theorem hexFaces_eq {ax ay az : Axis K} (hx : ax.N = 2) (hy : ay.N = 2) (hz : az.N = 2) {T : List (List Int)}
    (h : transformTopology (addStart 0 (gridTopo [ax, ay, az])) [pathH8] pathH8.length 0 = some T) :
    transformTopology (asTopo T) pathH8Q4 4 0 = some (hexFaces ax.n ay.n az.n) := by
  rw [hexTopo ax ay az hx hy hz h, transformTopology_eq]
  · rfl
  · refine pathOK_of_width (w := 8) ?_ (by decide)
    intro r hr
    obtain ⟨q, _, rfl⟩ := List.mem_map.1 hr
    rfl

/-- **C99** uniform grids of hexahedra. -/
theorem C99_gridH8 {lX lY lZ : K} {nx ny nz : Nat} (s0 s1 s2 : K) (h : 1 ≤ nx ∧ 1 ≤ ny ∧ 1 ≤ nz) (hl : lX ≠ 0 ∧ lY ≠ 0 ∧ lZ ≠ 0) :
    ∃ C T F, gridH8 (args3 lX lY lZ nx ny nz s0 s1 s2 0) = some (C, T) ∧ transformTopology (asTopo T) pathH8Q4 4 0 = some F ∧
      BoxFaces C [s0, s1, s2] [s0 + lX, s1 + lY, s2 + lZ] nx ny nz F := by
  obtain ⟨T, h1, _⟩ := vtk3_closed 2 le_rfl tabH8 (uniAxis lX nx 2 s0) (uniAxis lY ny 2 s1) (uniAxis lZ nz 2 s2) rfl rfl rfl 0
  refine ⟨gridCoords [uniAxis lX nx 2 s0, uniAxis lY ny 2 s1, uniAxis lZ nz 2 s2], T, _, ?_, hexFaces_eq rfl rfl rfl h1, ?_⟩
  · have e : gridCore (args3 lX lY lZ nx ny nz s0 s1 s2 0) [2, 2, 2] true none = some (rgrid3 lX lY lZ nx ny nz 2 2 2 s0 s1 s2 0) := rfl
    rw [gridH8, gridNamed, e]
    simp only [Option.bind_eq_bind, Option.bind_some]
    rw [rgrid3, rgrid3_closed lX lY lZ s0 s1 s2 0 h ⟨le_rfl, le_rfl, le_rfl⟩ (.refl _) (.refl _), h1]
    rfl
  · have c : ∀ n : Nat, 1 ≤ n → ((n : K)) ≠ 0 := fun n hn => by exact_mod_cast (by omega : n ≠ 0)
    have := boxFaces_grid (uniAxis lX nx 2 s0) (uniAxis lY ny 2 s1) (uniAxis lZ nz 2 s2) rfl rfl rfl (uniAxis_sep hl.1 h.1)
      (uniAxis_sep hl.2.1 h.2.1) (uniAxis_sep hl.2.2 h.2.2) h.1 h.2.1 h.2.2
    simpa [uniAxis, c nx h.1, c ny h.2.1, c nz h.2.2] using this

/-- **C99** grids of hexahedra with bins. -/
theorem C99_gridH8_bins {bx bY bz : List K} (s0 s1 s2 : K) (h : 2 ≤ bx.length ∧ 2 ≤ bY.length ∧ 2 ≤ bz.length)
    (hb : bx.Nodup ∧ bY.Nodup ∧ bz.Nodup) :
    ∃ C T F, gridH8 (argsB3 bx bY bz s0 s1 s2 0) = some (C, T) ∧ transformTopology (asTopo T) pathH8Q4 4 0 = some F ∧
      BoxFaces C [s0 + bx.getD 0 0, s1 + bY.getD 0 0, s2 + bz.getD 0 0]
        [s0 + bx.getD (bx.length - 1) 0, s1 + bY.getD (bY.length - 1) 0, s2 + bz.getD (bz.length - 1) 0]
        (bx.length - 1) (bY.length - 1) (bz.length - 1) F := by
  obtain ⟨T, h1, _⟩ := vtk3_closed 2 le_rfl tabH8 (binAxis bx 2 s0) (binAxis bY 2 s1) (binAxis bz 2 s2) rfl rfl rfl 0
  refine ⟨gridCoords [binAxis bx 2 s0, binAxis bY 2 s1, binAxis bz 2 s2], T, _, ?_, hexFaces_eq rfl rfl rfl h1, ?_⟩
  · have e : gridCore (argsB3 bx bY bz s0 s1 s2 0) [2, 2, 2] true none = some (gridBins3 bx bY bz 2 2 2 s0 s1 s2 0) := rfl
    rw [gridH8, gridNamed, e]
    simp only [Option.bind_eq_bind, Option.bind_some]
    rw [gridBins3, bins3_closed s0 s1 s2 0 h ⟨le_rfl, le_rfl, le_rfl⟩ (.refl _) (.refl _), h1]
    rfl
  · exact boxFaces_grid (binAxis bx 2 s0) (binAxis bY 2 s1) (binAxis bz 2 s2) rfl rfl rfl (binAxis_sep hb.1 h.1)
      (binAxis_sep hb.2.1 h.2.1) (binAxis_sep hb.2.2 h.2.2) (by simp [binAxis]; omega) (by simp [binAxis]; omega) (by simp [binAxis]; omega)

end
end PM

namespace PM

/-! ## edges of plane grids -/

/-- Number of the point `(x, y)` of a plane lattice. -/
def latNo2 (b : Nat) (p : Nat × Nat) : Nat := p.1 * (b + 1) + p.2

def latCell2 (i j : Nat) : List (Nat × Nat) := [(i, j), (i + 1, j), (i + 1, j + 1), (i, j + 1)]

def latCells2 (a b : Nat) : List (Nat × Nat) := (List.range a).flatMap fun i => (List.range b).map fun j => (i, j)

theorem gridL2 {β : Type} (a b : Nat) (f : List Nat → β) : gridL [a, b] f = (latCells2 a b).map fun p => f [p.1, p.2] := by
  simp [gridL, latCells2, List.map_flatMap, Function.comp_def, ← List.map_eq_flatMap]

/-- The edges of a plane lattice: direction of the normal and the first point. -/
def latEdge : Nat → Nat × Nat → List (Nat × Nat)
  | 0, (x, y) => [(x, y), (x, y + 1)]
  | _, (x, y) => [(x, y), (x + 1, y)]

def InLat2 (a b : Nat) (p : Nat × Nat) : Prop := p.1 ≤ a ∧ p.2 ≤ b

theorem latNo2_inj {a b : Nat} {p q : Nat × Nat} (hp : InLat2 a b p) (hq : InLat2 a b q) (h : latNo2 b p = latNo2 b q) : p = q := by
  obtain ⟨x, y⟩ := p
  obtain ⟨x', y'⟩ := q
  have := latNo_inj (a := a) (b := b) (c := 0) (p := (x, y, 0)) (q := (x', y', 0)) ⟨hp.1, hp.2, le_rfl⟩ ⟨hq.1, hq.2, le_rfl⟩ (by
    simpa [latNo, latNo2] using h)
  simp only [Prod.mk.injEq, and_true] at this ⊢
  exact this

theorem latEdge_perm {a b : Nat} {d e : Nat} (hd : d < 2) (he : e < 2) {p q : Nat × Nat}
    (hp : ∀ r ∈ latEdge d p, InLat2 a b r) (hq : ∀ r ∈ latEdge e q, InLat2 a b r) :
    ((latEdge d p).map (latNo2 b)).Perm ((latEdge e q).map (latNo2 b)) ↔ d = e ∧ p = q := by
  constructor
  · intro h
    have m1 : ∀ r ∈ latEdge d p, r ∈ latEdge e q := by
      intro r hr
      obtain ⟨r', h1, h2⟩ := List.mem_map.1 (h.mem_iff.1 (List.mem_map_of_mem hr))
      rwa [← latNo2_inj (hq _ h1) (hp _ hr) h2]
    have m2 : ∀ r ∈ latEdge e q, r ∈ latEdge d p := by
      intro r hr
      obtain ⟨r', h1, h2⟩ := List.mem_map.1 (h.mem_iff.2 (List.mem_map_of_mem hr))
      rwa [← latNo2_inj (hp _ h1) (hq _ hr) h2]
    obtain ⟨x, y⟩ := p
    obtain ⟨x', y'⟩ := q
    clear h hp hq
    interval_cases d <;> interval_cases e <;>
    · simp only [latEdge, List.forall_mem_cons] at m1 m2
      simp only [List.mem_cons, List.not_mem_nil, Prod.mk.injEq, or_false, true_and] at m1 m2 ⊢
      omega
  · rintro ⟨rfl, rfl⟩; exact .refl _

/-- The edges of the cells. -/
def quadEdges (a b : Nat) : Topo := facesOf edgeIdsQ4 ((latCells2 a b).map fun p => (latCell2 p.1 p.2).map (latNo2 b))

/-- The sides of a cell. -/
def latSides2 (p : Nat × Nat) : List (Nat × (Nat × Nat)) := [(1, p), (0, (p.1 + 1, p.2)), (1, (p.1, p.2 + 1)), (0, p)]

theorem mem_latCells2 {a b : Nat} {p : Nat × Nat} : p ∈ latCells2 a b ↔ p.1 < a ∧ p.2 < b := by
  obtain ⟨x, y⟩ := p
  simp only [latCells2, List.mem_flatMap, List.mem_range, List.mem_map, Prod.mk.injEq]
  constructor
  · rintro ⟨i, hi, j, hj, rfl, rfl⟩; exact ⟨hi, hj⟩
  · rintro ⟨hi, hj⟩; exact ⟨x, hi, y, hj, rfl, rfl⟩

theorem sum_latCells2 (a b : Nat) (f : Nat × Nat → Nat) :
    ((latCells2 a b).map f).sum = ∑ i ∈ Finset.range a, ∑ j ∈ Finset.range b, f (i, j) := by
  have := sum_latCells a b 1 fun p => f (p.1, p.2.1)
  simp only [Finset.sum_range_one] at this
  rw [← this]
  congr 1
  simp [latCells, latCells2, List.map_flatMap, ← List.map_eq_flatMap, List.range_succ, Function.comp_def]

theorem latCells2_nodup (a b : Nat) : (latCells2 a b).Nodup := by
  have := gridL_nodup (ds := [a, b]) (f := fun is => (is.getD 0 0, is.getD 1 0)) (by
    intro xs ys hx hy h
    obtain ⟨x, y, rfl, _⟩ := within2.1 hx
    obtain ⟨x', y', rfl, _⟩ := within2.1 hy
    simp at h
    simp [h])
  rw [gridL2] at this
  simpa using this

theorem quadEdges_countP (a b : Nat) (P : List Nat → Bool) : (quadEdges a b).countP P = ((latCells2 a b).map fun q => List.countP P
    (edgeIdsQ4.map fun g => g.map fun n => ((latCell2 q.1 q.2).map (latNo2 b)).getD n 0)).sum := by
  rw [quadEdges, facesOf, List.countP_flatMap, List.map_map]
  rfl

theorem sum_indicator2 {l : List (Nat × Nat)} (hl : l.Nodup) {P : Nat × Nat → Prop} [DecidablePred P] {Q : Prop} [Decidable Q]
    (p : Nat × Nat) (h : ∀ q ∈ l, P q ↔ q = p ∧ Q) : (l.map fun q => if P q then 1 else 0).sum = if p ∈ l ∧ Q then 1 else 0 := by
  have := sum_indicator' (l := l.map fun q => (q.1, q.2, 0)) (hl.map fun x y h => by
    simp only [Prod.mk.injEq, and_true] at h; exact Prod.ext h.1 h.2) (P := fun q => P (q.1, q.2.1)) (Q := Q) (p.1, p.2, 0) (by
    intro q hq
    obtain ⟨r, hr, rfl⟩ := List.mem_map.1 hq
    rw [h _ hr]
    simp [Prod.ext_iff])
  rw [List.map_map] at this
  refine Eq.trans ?_ (this.trans ?_)
  · rfl
  · apply if_congr _ rfl rfl
    apply and_congr_left'
    simp

/-- Number of the line of an edge. -/
def latLevel2 (d : Nat) (p : Nat × Nat) : Nat := [p.1, p.2].getD d 0

/-- An edge belongs to the cells on its two sides. -/
theorem quadEdges_occ {a b d : Nat} (hd : d < 2) {p : Nat × Nat} (hp : ∀ r ∈ latEdge d p, InLat2 a b r) {f : List Nat}
    (hf : f.Perm ((latEdge d p).map (latNo2 b))) :
    occ (quadEdges a b) f = (if latLevel2 d p < latLevel2 d (a, b) then 1 else 0) + (if 0 < latLevel2 d p then 1 else 0) := by
  have key : ∀ q ∈ latCells2 a b, (List.countP (fun t => f.isPerm t)
      (edgeIdsQ4.map fun g => g.map fun n => ((latCell2 q.1 q.2).map (latNo2 b)).getD n 0)) = (latSides2 q).count (d, p) := by
    rintro ⟨x, y⟩ hq
    rw [mem_latCells2] at hq
    simp only at hq
    have hk : ∀ (e : Nat) (r : Nat × Nat) (t : List (Nat × Nat)), e < 2 → t.Perm (latEdge e r) →
        (∀ s ∈ t, InLat2 a b s) → f.isPerm (t.map (latNo2 b)) = ((e, r) == (d, p)) := by
      intro e r t he ht hb
      rw [Bool.eq_iff_iff, List.isPerm_iff]
      have hp' : (t.map (latNo2 b)).Perm ((latEdge e r).map (latNo2 b)) := ht.map _
      rw [hf.congr_left, hp'.congr_right, latEdge_perm hd he hp fun s hs => hb s (ht.mem_iff.2 hs)]
      simp only [beq_iff_eq, Prod.mk.injEq]
      exact ⟨fun h => ⟨h.1.symm, h.2.symm⟩, fun h => ⟨h.1.symm, h.2.symm⟩⟩
    have h0 := hk 1 (x, y) [(x, y), (x + 1, y)] (by omega) (.refl _) (by simp [InLat2]; omega)
    have h1 := hk 0 (x + 1, y) [(x + 1, y), (x + 1, y + 1)] (by omega) (.refl _) (by simp [InLat2]; omega)
    have h2 := hk 1 (x, y + 1) [(x + 1, y + 1), (x, y + 1)] (by omega) (.swap _ _ _) (by simp [InLat2]; omega)
    have h3 := hk 0 (x, y) [(x, y + 1), (x, y)] (by omega) (.swap _ _ _) (by simp [InLat2]; omega)
    simp only [List.map_cons, List.map_nil] at h0 h1 h2 h3
    simp only [edgeIdsQ4, latCell2, latSides2, List.map_cons, List.map_nil, List.getD_cons_zero, List.getD_cons_succ, List.countP_cons,
      List.countP_nil, List.count_cons, List.count_nil, h0, h1, h2, h3]
  rw [occ, quadEdges_countP, List.map_congr_left key]
  have hn := latCells2_nodup a b
  obtain ⟨x, y⟩ := p
  clear key hf
  interval_cases d
  · simp only [latEdge, List.forall_mem_cons, InLat2] at hp
    have e : ∀ q : Nat × Nat, (latSides2 q).count (0, (x, y)) =
        (if q = (x, y) ∧ True then 1 else 0) + (if (q.1 + 1, q.2) = (x, y) then 1 else 0) := by
      intro q; simp [latSides2, List.count_cons]
    simp only [e, List.sum_map_add]
    rw [sum_indicator2 hn (x, y) (fun q _ => Iff.rfl), sum_indicator2 hn (Q := 0 < x) (x - 1, y) (fun q _ => by
      obtain ⟨i, j⟩ := q; simp only [Prod.mk.injEq]; omega)]
    simp only [mem_latCells2, latLevel2, List.getD_cons_zero, and_true]
    congr 1 <;> (apply if_congr _ rfl rfl; omega)
  · simp only [latEdge, List.forall_mem_cons, InLat2] at hp
    have e : ∀ q : Nat × Nat, (latSides2 q).count (1, (x, y)) =
        (if q = (x, y) ∧ True then 1 else 0) + (if (q.1, q.2 + 1) = (x, y) then 1 else 0) := by
      intro q; simp [latSides2, List.count_cons]; exact Nat.add_comm _ _
    simp only [e, List.sum_map_add]
    rw [sum_indicator2 hn (x, y) (fun q _ => Iff.rfl), sum_indicator2 hn (Q := 0 < y) (x, y - 1) (fun q _ => by
      obtain ⟨i, j⟩ := q; simp only [Prod.mk.injEq]; omega)]
    simp only [mem_latCells2, latLevel2, List.getD_cons_zero, List.getD_cons_succ, and_true]
    congr 1 <;> (apply if_congr _ rfl rfl; omega)

theorem mem_quadEdges {a b : Nat} {f : List Nat} : f ∈ quadEdges a b ↔ ∃ q ∈ latCells2 a b,
    f = (latEdge 1 q).map (latNo2 b) ∨ f = (latEdge 0 (q.1 + 1, q.2)).map (latNo2 b) ∨
    f = ((latEdge 1 (q.1, q.2 + 1)).map (latNo2 b)).reverse ∨ f = ((latEdge 0 q).map (latNo2 b)).reverse := by
  simp [quadEdges, facesOf, edgeIdsQ4, latCell2, latEdge]

/-- The cell on one side of an edge lists it in one direction, the cell on the other side in the other. -/
theorem quadEdges_class {a b : Nat} {f : List Nat} : f ∈ quadEdges a b ↔ ∃ d < 2, ∃ p, (∀ r ∈ latEdge d p, InLat2 a b r) ∧
    ((f = (latEdge d p).map (latNo2 b) ∧ if d = 0 then 0 < latLevel2 d p else latLevel2 d p < latLevel2 d (a, b)) ∨
      (f = ((latEdge d p).map (latNo2 b)).reverse ∧ if d = 0 then latLevel2 d p < latLevel2 d (a, b) else 0 < latLevel2 d p)) := by
  rw [mem_quadEdges]
  constructor
  · rintro ⟨⟨x, y⟩, hq, h⟩
    rw [mem_latCells2] at hq
    simp only at hq
    rcases h with h | h | h | h
    · exact ⟨1, by omega, (x, y), by simp [latEdge, InLat2]; omega, .inl ⟨h, by simp [latLevel2]; omega⟩⟩
    · exact ⟨0, by omega, (x + 1, y), by simp [latEdge, InLat2]; omega, .inl ⟨h, by simp [latLevel2]⟩⟩
    · exact ⟨1, by omega, (x, y + 1), by simp [latEdge, InLat2]; omega, .inr ⟨h, by simp [latLevel2]⟩⟩
    · exact ⟨0, by omega, (x, y), by simp [latEdge, InLat2]; omega, .inr ⟨h, by simp [latLevel2]; omega⟩⟩
  · rintro ⟨d, hd, ⟨x, y⟩, hp, h⟩
    interval_cases d <;> simp only [latEdge, List.forall_mem_cons, InLat2] at hp <;>
      simp only [latLevel2, List.getD_cons_zero, List.getD_cons_succ, if_true, one_ne_zero, if_false] at h
    · rcases h with ⟨h, h'⟩ | ⟨h, h'⟩
      · obtain ⟨x, rfl⟩ : ∃ i, x = i + 1 := ⟨x - 1, by omega⟩
        exact ⟨(x, y), by rw [mem_latCells2]; dsimp only; omega, .inr (.inl h)⟩
      · exact ⟨(x, y), by rw [mem_latCells2]; dsimp only; omega, .inr (.inr (.inr h))⟩
    · rcases h with ⟨h, h'⟩ | ⟨h, h'⟩
      · exact ⟨(x, y), by rw [mem_latCells2]; dsimp only; omega, .inl h⟩
      · obtain ⟨y, rfl⟩ : ∃ i, y = i + 1 := ⟨y - 1, by omega⟩
        exact ⟨(x, y), by rw [mem_latCells2]; dsimp only; omega, .inr (.inr (.inl h))⟩

theorem length_quadEdges (a b : Nat) : (quadEdges a b).length = 4 * (a * b) := by
  have : (latCells2 a b).length = a * b := by simp [latCells2, List.length_flatMap]
  rw [quadEdges, facesOf, List.length_flatMap]
  simp [edgeIdsQ4, this, Nat.mul_comm, Function.comp_def]

theorem count_outer2 {a b : Nat} (ha : 1 ≤ a) (hb : 1 ≤ b) :
    ((quadEdges a b).countP fun f => occ (quadEdges a b) f = 1) = 2 * (a + b) := by
  have key : ∀ q ∈ latCells2 a b, (List.countP (fun f => decide (occ (quadEdges a b) f = 1))
      (edgeIdsQ4.map fun g => g.map fun n => ((latCell2 q.1 q.2).map (latNo2 b)).getD n 0)) =
      (if q.1 = 0 then 1 else 0) + (if q.1 = a - 1 then 1 else 0) + (if q.2 = 0 then 1 else 0) + (if q.2 = b - 1 then 1 else 0) := by
    rintro ⟨x, y⟩ hq
    rw [mem_latCells2] at hq
    simp only at hq
    have h0 := quadEdges_occ (a := a) (b := b) (d := 1) (by omega) (p := (x, y)) (by simp [latEdge, InLat2]; omega) (.refl _)
    have h1 := quadEdges_occ (a := a) (b := b) (d := 0) (by omega) (p := (x + 1, y)) (by simp [latEdge, InLat2]; omega) (.refl _)
    have h2 := quadEdges_occ (a := a) (b := b) (d := 1) (by omega) (p := (x, y + 1)) (by simp [latEdge, InLat2]; omega)
      (List.Perm.swap (latNo2 b (x, y + 1)) (latNo2 b (x + 1, y + 1)) [])
    have h3 := quadEdges_occ (a := a) (b := b) (d := 0) (by omega) (p := (x, y)) (by simp [latEdge, InLat2]; omega)
      (List.Perm.swap (latNo2 b (x, y)) (latNo2 b (x, y + 1)) [])
    simp only [List.map_cons, List.map_nil, latEdge, latLevel2, List.getD_cons_zero, List.getD_cons_succ] at h0 h1 h2 h3
    simp only [edgeIdsQ4, latCell2, List.map_cons, List.map_nil, List.getD_cons_zero, List.getD_cons_succ, List.countP_cons,
      List.countP_nil, h0, h1, h2, h3, decide_eq_true_eq]
    have i0 : (if x < a then 1 else 0) + (if 0 < x then 1 else 0) = 1 ↔ x = 0 := by split <;> split <;> omega
    have i1 : (if x + 1 < a then 1 else 0) + (if 0 < x + 1 then 1 else 0) = 1 ↔ x = a - 1 := by split <;> split <;> omega
    have i2 : (if y < b then 1 else 0) + (if 0 < y then 1 else 0) = 1 ↔ y = 0 := by split <;> split <;> omega
    have i3 : (if y + 1 < b then 1 else 0) + (if 0 < y + 1 then 1 else 0) = 1 ↔ y = b - 1 := by split <;> split <;> omega
    simp only [i0, i1, i2, i3]
    omega
  rw [quadEdges_countP, List.map_congr_left key, sum_latCells2]
  change (∑ i ∈ Finset.range a, ∑ j ∈ Finset.range b, ((if i = 0 then 1 else 0) + (if i = a - 1 then 1 else 0) +
    (if j = 0 then 1 else 0) + (if j = b - 1 then 1 else 0))) = _
  have n1 : 0 < a := ha
  have n2 : 0 < b := hb
  have m1 : a - 1 < a := Nat.sub_lt ha Nat.one_pos
  have m2 : b - 1 < b := Nat.sub_lt hb Nat.one_pos
  simp only [Finset.sum_add_distrib, Finset.sum_ite_eq', Finset.sum_const, Finset.mem_range, Finset.card_range, smul_eq_mul, mul_ite, mul_one,
    mul_zero, n1, n2, m1, m2, if_true]
  ring

section
variable {K : Type} [Field K]

theorem latCoords2 (ax ay : Axis K) (hx : ax.N = 2) (hy : ay.N = 2) {p : Nat × Nat} (hp : InLat2 ax.n ay.n p) :
    (gridCoords [ax, ay])[latNo2 ay.n p]? = some [ax.b p.1, ay.b p.2] := by
  have hw : Within [p.1, p.2] ([ax, ay].map Axis.pts) := by
    obtain ⟨h1, h2⟩ := hp
    simp [Within, Axis.pts, hx, hy]; omega
  have := gridL_get (f := gridVal [ax, ay]) hw
  rw [gridCoords, show latNo2 ay.n p = lexNo [p.1, p.2] ([ax, ay].map Axis.pts) by
    simp [lexNo, latNo2, Axis.pts, hx, hy], this]
  simp [gridVal, Axis.val, Axis.pos, hx, hy, Nat.mod_one]

theorem onBox_iff2 (ax ay : Axis K) (hx : ax.N = 2) (hy : ay.N = 2) (sx : ax.Sep) (sy : ay.Sep)
    {d : Nat} (hd : d < 2) {p : Nat × Nat} (hp : ∀ r ∈ latEdge d p, InLat2 ax.n ay.n r) {f : List Nat}
    (hf : f.Perm ((latEdge d p).map (latNo2 ay.n))) :
    OnBox (gridCoords [ax, ay]) [ax.b 0, ay.b 0] [ax.b ax.n, ay.b ay.n] f ↔
      latLevel2 d p = 0 ∨ latLevel2 d p = latLevel2 d (ax.n, ay.n) := by
  have e : ∀ (k : Nat) (v : K), (∀ n ∈ f, ∃ r, (gridCoords [ax, ay])[n]? = some r ∧ r[k]? = some v) ↔
      ∀ r ∈ latEdge d p, [ax.b r.1, ay.b r.2][k]? = some v := by
    intro k v
    constructor
    · intro h r hr
      obtain ⟨row, h1, h2⟩ := h _ (hf.mem_iff.2 (List.mem_map_of_mem hr))
      rw [latCoords2 ax ay hx hy (hp r hr)] at h1
      rw [Option.some.inj h1, h2]
    · intro h n hn
      obtain ⟨r, hr, rfl⟩ := List.mem_map.1 (hf.mem_iff.1 hn)
      exact ⟨_, latCoords2 ax ay hx hy (hp r hr), h r hr⟩
  obtain ⟨x, y⟩ := p
  simp only [OnBox, e]
  constructor
  · rintro ⟨k, v, h1, h2⟩
    have hk : k < 2 := by
      by_contra hk
      rw [List.getElem?_eq_none (by simp; omega), List.getElem?_eq_none (by simp; omega)] at h1
      simp at h1
    interval_cases d <;> interval_cases k <;>
      simp only [latEdge, List.forall_mem_cons, InLat2, List.getElem?_cons_zero, List.getElem?_cons_succ, Option.some.injEq] at hp h1 h2 <;>
      simp only [latLevel2, List.getD_cons_zero, List.getD_cons_succ]
    · exact h1.imp (fun h => sx _ _ (by omega) (by omega) (h2.1.trans h.symm)) (fun h => sx _ _ (by omega) (by omega) (h2.1.trans h.symm))
    · have := sy _ _ (by omega) (by omega) (h2.1.trans h2.2.1.symm); omega
    · have := sx _ _ (by omega) (by omega) (h2.1.trans h2.2.1.symm); omega
    · exact h1.imp (fun h => sy _ _ (by omega) (by omega) (h2.1.trans h.symm)) (fun h => sy _ _ (by omega) (by omega) (h2.1.trans h.symm))
  · intro h
    interval_cases d <;> simp only [latLevel2, List.getD_cons_zero, List.getD_cons_succ] at h
    · exact ⟨0, ax.b x, by rcases h with rfl | rfl <;> simp, by simp [latEdge]⟩
    · exact ⟨1, ay.b y, by rcases h with rfl | rfl <;> simp, by simp [latEdge]⟩

/-- What is claimed of the edges `F` of a mesh with points `C` of the rectangle between `lo` and `hi`, with `a`, `b` cells in the two
directions: edges on the sides of the rectangle belong to one cell, the others to two cells that list them in opposite directions. -/
structure BoxEdges (C : List (List K)) (lo hi : List K) (a b : Nat) (F : Topo) : Prop where
  total : F.length = 4 * (a * b)
  sides : ∀ f ∈ F, (OnBox C lo hi f ∧ occ F f = 1) ∨ (¬ OnBox C lo hi f ∧ occ F f = 2 ∧ f.reverse ∈ F)
  outer : (F.countP fun f => occ F f = 1) = 2 * (a + b)
  distinct : ∀ t : List (List (List Nat)), t.flatten = F → (uniqueTopoData t).1.length = 2 * (a * b) + a + b

theorem boxEdges_grid (ax ay : Axis K) (hx : ax.N = 2) (hy : ay.N = 2) (sx : ax.Sep) (sy : ay.Sep) (n1 : 1 ≤ ax.n) (n2 : 1 ≤ ay.n) :
    BoxEdges (gridCoords [ax, ay]) [ax.b 0, ay.b 0] [ax.b ax.n, ay.b ay.n] ax.n ay.n (quadEdges ax.n ay.n) := by
  have hs : ∀ f ∈ quadEdges ax.n ay.n, (OnBox (gridCoords [ax, ay]) [ax.b 0, ay.b 0] [ax.b ax.n, ay.b ay.n] f ∧
      occ (quadEdges ax.n ay.n) f = 1) ∨ (¬ OnBox (gridCoords [ax, ay]) [ax.b 0, ay.b 0] [ax.b ax.n, ay.b ay.n] f ∧
      occ (quadEdges ax.n ay.n) f = 2 ∧ f.reverse ∈ quadEdges ax.n ay.n) := by
    intro f hf
    obtain ⟨d, hd, p, hp, h⟩ := quadEdges_class.1 hf
    have hperm : f.Perm ((latEdge d p).map (latNo2 ay.n)) := by
      rcases h with ⟨h, _⟩ | ⟨h, _⟩
      · rw [h]
      · rw [h]; exact List.reverse_perm _
    have ho := quadEdges_occ hd hp hperm
    have hb := onBox_iff2 ax ay hx hy sx sy hd hp hperm
    have hl : 1 ≤ latLevel2 d (ax.n, ay.n) := by interval_cases d <;> simpa [latLevel2]
    have hle : latLevel2 d p ≤ latLevel2 d (ax.n, ay.n) := by
      have h0 : p ∈ latEdge d p := by interval_cases d <;> simp [latEdge]
      have := hp p h0
      interval_cases d <;> simp only [latLevel2, List.getD_cons_zero, List.getD_cons_succ]
      exacts [this.1, this.2]
    by_cases hs : latLevel2 d p = 0 ∨ latLevel2 d p = latLevel2 d (ax.n, ay.n)
    · left
      refine ⟨hb.2 hs, ?_⟩
      rw [ho]
      rcases hs with hs | hs
      · rw [if_pos (by omega), if_neg (by omega)]
      · rw [if_neg (by omega), if_pos (by omega)]
    · right
      refine ⟨fun h => hs (hb.1 h), ?_, ?_⟩
      · rw [ho, if_pos (by omega), if_pos (by omega)]
      · refine quadEdges_class.2 ⟨d, hd, p, hp, ?_⟩
        rcases h with ⟨h, _⟩ | ⟨h, _⟩
        · right; exact ⟨by rw [h], by split <;> omega⟩
        · left; exact ⟨by rw [h, List.reverse_reverse], by split <;> omega⟩
  have ho := count_outer2 n1 n2
  have hl := length_quadEdges ax.n ay.n
  refine ⟨hl, hs, ho, ?_⟩
  intro t ht
  have := count_unique (F := quadEdges ax.n ay.n) fun f hf => (hs f hf).imp (·.2) (·.2.1)
  rw [show (uniqueTopoData t).1 = npUnique (t.flatten.map sortRow) from rfl, ht]
  rw [hl, ho] at this
  omega

variable [CharZero K]

/-- The topology of `gridQ4` in closed form. -/
theorem quadTopo (ax ay : Axis K) (hx : ax.N = 2) (hy : ay.N = 2) {T : List (List Int)}
    (h : transformTopology (addStart 0 (gridTopo [ax, ay])) [pathQ4] pathQ4.length 0 = some T) :
    asTopo T = (latCells2 ax.n ay.n).map fun p => (latCell2 p.1 p.2).map (latNo2 ay.n) := by
  have hp : ∀ q ∈ pathQ4, q < ([ax, ay].map fun a => a.N).prod := by simp [hx, hy, pathQ4]
  have e := transformResult_eq (pathOK_grid [ax, ay] 0 hp) (0 : Int) fun _ => mem_transformWrites
  rw [show transformTopology (addStart 0 (gridTopo [ax, ay])) [pathQ4] pathQ4.length 0 = _ from e] at h
  obtain rfl := Option.some.inj h
  simp only [gridTopo, List.map_cons, List.map_nil, gridL2, hx, hy]
  simp [asTopo, transformed, addStart, List.flatMap_map, ← List.map_eq_flatMap, latCells2, pathQ4, List.map_map, Function.comp_def, latCell2,
    latNo2, Axis.no, gridNo, lexNo, hx, hy, Axis.pts, List.range_succ]
  intro a b _ _ _ _ _ _
  have key : ∀ (z : Int) (m : Nat), z = m → z.toNat = m := fun z m h => by omega
  refine ⟨?_, ?_, ?_, ?_⟩ <;> (apply key; push_cast; ring)

theorem quadEdges_eq {ax ay : Axis K} (hx : ax.N = 2) (hy : ay.N = 2) {T : List (List Int)}
    (h : transformTopology (addStart 0 (gridTopo [ax, ay])) [pathQ4] pathQ4.length 0 = some T) :
    facesOf edgeIdsQ4 (asTopo T) = quadEdges ax.n ay.n := by
  rw [quadTopo ax ay hx hy h]
  rfl

/-- **C99** plane uniform grids. -/
theorem C99_gridQ4 {lX lY : K} {nx ny : Nat} (s0 s1 : K) (h : 1 ≤ nx ∧ 1 ≤ ny) (hl : lX ≠ 0 ∧ lY ≠ 0) :
    ∃ C T, gridQ4 (args2 lX lY nx ny s0 s1 0) = some (C, T) ∧
      BoxEdges C [s0, s1] [s0 + lX, s1 + lY] nx ny (facesOf edgeIdsQ4 (asTopo T)) := by
  obtain ⟨T, h1, _⟩ := vtk2_closed 2 le_rfl tabQ4 (uniAxis lX nx 2 s0) (uniAxis lY ny 2 s1) rfl rfl 0
  refine ⟨gridCoords [uniAxis lX nx 2 s0, uniAxis lY ny 2 s1], T, ?_, ?_⟩
  · have e : gridCore (args2 lX lY nx ny s0 s1 0) [2, 2] true none = some (rgrid2 lX lY nx ny 2 2 s0 s1 0) := rfl
    rw [gridQ4, gridNamed, e]
    simp only [Option.bind_eq_bind, Option.bind_some]
    rw [rgrid2, rgrid2_closed lX lY s0 s1 0 h ⟨le_rfl, le_rfl⟩ (.refl _) (.refl _), h1]
    rfl
  · have c : ∀ n : Nat, 1 ≤ n → ((n : K)) ≠ 0 := fun n hn => by exact_mod_cast (by omega : n ≠ 0)
    have := boxEdges_grid (uniAxis lX nx 2 s0) (uniAxis lY ny 2 s1) rfl rfl (uniAxis_sep hl.1 h.1) (uniAxis_sep hl.2 h.2) h.1 h.2
    rw [quadEdges_eq rfl rfl h1]
    simpa [uniAxis, c nx h.1, c ny h.2] using this

/-- **C99** plane grids with bins. -/
theorem C99_gridQ4_bins {bx bY : List K} (s0 s1 : K) (h : 2 ≤ bx.length ∧ 2 ≤ bY.length) (hb : bx.Nodup ∧ bY.Nodup) :
    ∃ C T, gridQ4 (argsB2 bx bY s0 s1 0) = some (C, T) ∧
      BoxEdges C [s0 + bx.getD 0 0, s1 + bY.getD 0 0] [s0 + bx.getD (bx.length - 1) 0, s1 + bY.getD (bY.length - 1) 0]
        (bx.length - 1) (bY.length - 1) (facesOf edgeIdsQ4 (asTopo T)) := by
  obtain ⟨T, h1, _⟩ := vtk2_closed 2 le_rfl tabQ4 (binAxis bx 2 s0) (binAxis bY 2 s1) rfl rfl 0
  refine ⟨gridCoords [binAxis bx 2 s0, binAxis bY 2 s1], T, ?_, ?_⟩
  · have e : gridCore (argsB2 bx bY s0 s1 0) [2, 2] true none = some (gridBins2 bx bY 2 2 s0 s1 0) := rfl
    rw [gridQ4, gridNamed, e]
    simp only [Option.bind_eq_bind, Option.bind_some]
    rw [gridBins2, bins2_closed s0 s1 0 h ⟨le_rfl, le_rfl⟩ (.refl _) (.refl _), h1]
    rfl
  · rw [quadEdges_eq rfl rfl h1]
    exact boxEdges_grid (binAxis bx 2 s0) (binAxis bY 2 s1) rfl rfl (binAxis_sep hb.1 h.1) (binAxis_sep hb.2 h.2)
      (by simp [binAxis]; omega) (by simp [binAxis]; omega)

end

/-! ## examples -/

/-- Two cells: eleven different faces, ten of them on the box. -/
example : (hexFaces 2 1 1).length = 12 ∧ ((hexFaces 2 1 1).countP fun f => occ (hexFaces 2 1 1) f = 1) = 10 ∧
    occ (hexFaces 2 1 1) [4, 6, 7, 5] = 2 := by decide +kernel

example : ∃ C T F, gridH8 (args3 (3 : ℚ) 2 (-1) 4 2 3 0 5 1 0) = some (C, T) ∧ transformTopology (asTopo T) pathH8Q4 4 0 = some F ∧
    BoxFaces C [0, 5, 1] [0 + 3, 5 + 2, 1 + -1] 4 2 3 F := C99_gridH8 _ _ _ (by decide) (by norm_num)

example : ∃ C T, gridQ4 (argsB2 [(0 : ℚ), 1, 3] [5, 2] 0 0 0) = some (C, T) ∧
    BoxEdges C [0 + 0, 0 + 5] [0 + 3, 0 + 2] 2 1 (facesOf edgeIdsQ4 (asTopo T)) := C99_gridQ4_bins 0 0 (by decide) (by decide)

/-- With a repeated bin the inner faces at that bin lie on the side of the box. -/
theorem C99_repeated_bin_false : ¬ ∀ (bx bY : List ℚ) (C : List (List ℚ)) (T : List (List Int)), 2 ≤ bx.length → 2 ≤ bY.length →
    gridQ4 (argsB2 bx bY 0 0 0) = some (C, T) →
    BoxEdges C [0 + bx.getD 0 0, 0 + bY.getD 0 0] [0 + bx.getD (bx.length - 1) 0, 0 + bY.getD (bY.length - 1) 0]
      (bx.length - 1) (bY.length - 1) (facesOf edgeIdsQ4 (asTopo T)) := by
  intro h
  have := (h [0, 1, 1] [0, 1] [[0, 0], [0, 1], [1, 0], [1, 1], [1, 0], [1, 1]] [[0, 2, 3, 1], [2, 4, 5, 3]] (by decide) (by decide)
    (by decide +kernel)).sides [2, 3] (by decide)
  rcases this with ⟨_, h2⟩ | ⟨h1, _⟩
  · exact absurd h2 (by decide)
  · refine h1 ⟨0, 1, .inr (by decide +kernel), ?_⟩
    intro n hn
    simp only [List.mem_cons, List.not_mem_nil, or_false] at hn
    rcases hn with rfl | rfl
    · exact ⟨[1, 0], by decide +kernel, rfl⟩
    · exact ⟨[1, 1], by decide +kernel, rfl⟩

end PM
