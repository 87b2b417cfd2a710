import Verif.Cells

/-!
# Properties C11, C13 and the orientation part of C14 (tables of cells)
-/

namespace PM
open V3

/-! ## specification -/

/-- The directed edges of a polygon: consecutive nodes, closing up. -/
def dirEdges {α : Type} (poly : List α) : List (α × α) := poly.zip (poly.rotate 1)

/-- The entities (faces or edges) of one cell, read off a table of local numbers. -/
def entities {α : Type} (table : List (List Nat)) (cell : List α) (d : α) : List (List α) :=
  table.map (List.map fun q => cell.getD q d)

/-- The directed edges of all faces of a cell. -/
def boundaryEdges {α : Type} (table : List (List Nat)) (cell : List α) (d : α) : List (α × α) :=
  (entities table cell d).flatMap dirEdges

theorem boundaryEdges_eq {α : Type} (table : List (List Nat)) (cell : List α) (d : α) :
    boundaryEdges table cell d =
      (table.flatMap dirEdges).map fun e => (cell.getD e.1 d, cell.getD e.2 d) := by
  unfold boundaryEdges entities
  rw [List.flatMap_map, List.map_flatMap]
  apply List.flatMap_congr
  intro t _
  simp [dirEdges, List.zip_map, ← List.map_rotate]

theorem getD_of_lt {α : Type} {l : List α} {d : α} {i : Nat} (h : i < l.length) : l.getD i d = l[i] := by
  simp [List.getElem?_eq_getElem h]

theorem count_map_of_inj {α β : Type} [BEq α] [LawfulBEq α] [BEq β] [LawfulBEq β] {f : α → β} {x : α} {l : List α}
    (h : ∀ y ∈ l, f y = f x → y = x) : (l.map f).count (f x) = l.count x := by
  induction l with
  | nil => rfl
  | cons a l ih =>
    rw [List.map_cons, List.count_cons, List.count_cons, ih fun y hy => h y (List.mem_cons_of_mem _ hy)]
    congr 1
    by_cases hax : a = x
    · subst hax; simp
    · have : f a ≠ f x := fun e => hax (h a List.mem_cons_self e)
      simp [hax, this]

/-- Table level form of "closed oriented surface made of the given edges". -/
def closedCheck (n : Nat) (faces edges : List (List Nat)) : Bool :=
  ((List.range n).all fun i => (List.range n).all fun j =>
    let D := faces.flatMap dirEdges
    (D.count (i, j) == D.count (j, i)) && decide (D.count (i, j) ≤ 1) &&
      (decide (D.count (i, j) = 1) == (edges.contains [i, j] || edges.contains [j, i]))) &&
  faces.all fun f => f.all fun q => decide (q < n)

/-- The faces of a cell form a closed oriented surface with the edges of the edge table: every directed edge is
run through at most once, as often as its reverse, and those run through are the listed edges. -/
theorem closed_of_check {n : Nat} {faces edges : List (List Nat)} (h : closedCheck n faces edges = true)
    (he : edges.all (fun e => e.length == 2 && e.all fun q => decide (q < n)) = true)
    {α : Type} [DecidableEq α] (cell : List α) (d : α) (hl : cell.length = n) (hn : cell.Nodup) (a b : α) :
    (boundaryEdges faces cell d).count (a, b) = (boundaryEdges faces cell d).count (b, a) ∧
    (boundaryEdges faces cell d).count (a, b) ≤ 1 ∧
    ((boundaryEdges faces cell d).count (a, b) = 1 ↔
      [a, b] ∈ entities edges cell d ∨ [b, a] ∈ entities edges cell d) := by
  simp only [closedCheck, Bool.and_eq_true, List.all_eq_true, List.mem_range, decide_eq_true_eq,
    beq_iff_eq] at h
  obtain ⟨h1, h2⟩ := h
  simp only [List.all_eq_true, Bool.and_eq_true, beq_iff_eq, decide_eq_true_eq] at he
  have hD : ∀ e ∈ faces.flatMap dirEdges, e.1 < n ∧ e.2 < n := by
    intro e hm
    obtain ⟨f, hf, hef⟩ := List.mem_flatMap.1 hm
    have := List.of_mem_zip hef
    exact ⟨h2 f hf _ this.1, h2 f hf _ (by simpa using this.2)⟩
  have hget : ∀ i, i < n → cell.getD i d ∈ cell := by
    intro i hi; simp [List.getElem?_eq_getElem (show i < cell.length by omega)]
  have hinj : ∀ i j, i < n → j < n → cell.getD i d = cell.getD j d → i = j := by
    intro i j hi hj hij
    rw [getD_of_lt (by omega), getD_of_lt (by omega)] at hij
    exact (List.Nodup.getElem_inj_iff hn).1 hij
  have hent : ∀ x y, [x, y] ∈ entities edges cell d → x ∈ cell ∧ y ∈ cell := by
    intro x y hm
    obtain ⟨e, hem, hee⟩ := List.mem_map.1 hm
    obtain ⟨hl2, hlt⟩ := he e hem
    match e, hl2 with
    | [p, q], _ =>
      simp only [List.map_cons, List.map_nil, List.cons.injEq, and_true] at hee
      exact ⟨hee.1 ▸ hget p (hlt p (by simp)), hee.2 ▸ hget q (hlt q (by simp))⟩
  rw [boundaryEdges_eq]
  by_cases ha : a ∈ cell
  · by_cases hb : b ∈ cell
    · obtain ⟨i, hi, rfl⟩ := List.mem_iff_getElem.1 ha
      obtain ⟨j, hj, rfl⟩ := List.mem_iff_getElem.1 hb
      have hgi : cell[i] = cell.getD i d := (getD_of_lt hi).symm
      have hgj : cell[j] = cell.getD j d := (getD_of_lt hj).symm
      have hc : ∀ i j, i < n → j < n →
          ((faces.flatMap dirEdges).map fun e => (cell.getD e.1 d, cell.getD e.2 d)).count
            (cell.getD i d, cell.getD j d) = (faces.flatMap dirEdges).count (i, j) := by
        intro i j hi hj
        apply count_map_of_inj (f := fun e : Nat × Nat => (cell.getD e.1 d, cell.getD e.2 d)) (x := (i, j))
        intro y hy hyx
        obtain ⟨e1, e2⟩ := Prod.mk.inj hyx
        have := hD y hy
        exact Prod.ext (hinj _ _ this.1 hi e1) (hinj _ _ this.2 hj e2)
      rw [hgi, hgj, hc i j (by omega) (by omega), hc j i (by omega) (by omega)]
      obtain ⟨⟨h3, h4⟩, h5⟩ := h1 i (by omega) j (by omega)
      refine ⟨h3, h4, ?_⟩
      have hmem : ∀ i j, i < n → j < n → ([cell.getD i d, cell.getD j d] ∈ entities edges cell d ↔
          edges.contains [i, j] = true) := by
        intro i j hi hj
        rw [List.contains_iff_mem]
        constructor
        · intro hm
          obtain ⟨e, hem, hee⟩ := List.mem_map.1 hm
          obtain ⟨hl2, hlt⟩ := he e hem
          match e, hl2 with
          | [p, q], _ =>
            simp only [List.map_cons, List.map_nil, List.cons.injEq, and_true] at hee
            have hp := hinj _ _ (hlt p (by simp)) hi hee.1
            have hq := hinj _ _ (hlt q (by simp)) hj hee.2
            subst hp; subst hq; exact hem
        · intro hm; exact List.mem_map.2 ⟨[i, j], hm, rfl⟩
      rw [hmem i j (by omega) (by omega), hmem j i (by omega) (by omega), ← Bool.or_eq_true, ← h5,
        decide_eq_true_eq]
    · have hno : ∀ x y : α, x = b ∨ y = b →
          ((faces.flatMap dirEdges).map fun e => (cell.getD e.1 d, cell.getD e.2 d)).count (x, y) = 0 := by
        intro x y hxy
        rw [List.count_eq_zero]
        intro hm
        obtain ⟨e, hem, hee⟩ := List.mem_map.1 hm
        obtain ⟨e1, e2⟩ := Prod.mk.inj hee
        have := hD e hem
        rcases hxy with rfl | rfl
        · exact hb (e1 ▸ hget _ this.1)
        · exact hb (e2 ▸ hget _ this.2)
      rw [hno a b (Or.inr rfl), hno b a (Or.inl rfl)]
      refine ⟨rfl, by omega, ⟨by omega, ?_⟩⟩
      rintro (hm | hm)
      · exact absurd (hent _ _ hm).2 hb
      · exact absurd (hent _ _ hm).1 hb
  · have hno : ∀ x y : α, x = a ∨ y = a →
        ((faces.flatMap dirEdges).map fun e => (cell.getD e.1 d, cell.getD e.2 d)).count (x, y) = 0 := by
      intro x y hxy
      rw [List.count_eq_zero]
      intro hm
      obtain ⟨e, hem, hee⟩ := List.mem_map.1 hm
      obtain ⟨e1, e2⟩ := Prod.mk.inj hee
      have := hD e hem
      rcases hxy with rfl | rfl
      · exact ha (e1 ▸ hget _ this.1)
      · exact ha (e2 ▸ hget _ this.2)
    rw [hno a b (Or.inl rfl), hno b a (Or.inr rfl)]
    refine ⟨rfl, by omega, ⟨by omega, ?_⟩⟩
    rintro (hm | hm)
    · exact absurd (hent _ _ hm).1 ha
    · exact absurd (hent _ _ hm).2 ha

section
variable {K : Type} [Field K] [LinearOrder K] [IsStrictOrderedRing K]

/-- All other nodes lie strictly behind the face: seen from the third node, second and first, for both corner
triples `(0, 1, 2)` and, for quadrilaterals, `(0, 2, 3)`. -/
def Outward (pts : Nat → V3 K) (n : Nat) (face : List Nat) : Prop :=
  ∀ i, i < n → i ∉ face →
    ∀ t ∈ [face.take 3, [face.getD 0 0, face.getD 2 0, face.getD (face.length - 1) 0]],
      t.Nodup → vol6 (pts (t.getD 0 0)) (pts (t.getD 1 0)) (pts (t.getD 2 0)) (pts i) < 0

def outwardCheck (lc : List (V3 Int)) (n : Nat) (face : List Nat) : Bool :=
  (List.range n).all fun i => face.contains i ||
    [face.take 3, [face.getD 0 0, face.getD 2 0, face.getD (face.length - 1) 0]].all fun t =>
      !decide t.Nodup || decide (vol6 (lc.getD (t.getD 0 0) 0) (lc.getD (t.getD 1 0) 0) (lc.getD (t.getD 2 0) 0)
        (lc.getD i 0) < 0)

omit [LinearOrder K] [IsStrictOrderedRing K] in
theorem vol6_half [CharZero K] (p q r s : V3 Int) :
    vol6 (half p : V3 K) (half q) (half r) (half s) = ((vol6 p q r s : Int) : K) / 8 := by
  simp only [vol6, det3, half, sub_x, sub_y, sub_z]
  push_cast
  field_simp
  ring

theorem outward_of_check {lc : List (V3 Int)} {n : Nat} {face : List Nat} (h : outwardCheck lc n face = true)
    (A : Aff K) (hA : 0 < A.det) : Outward (fun i => A.app (half (lc.getD i 0))) n face := by
  intro i hi hif t ht hnd
  simp only [outwardCheck, List.all_eq_true, List.mem_range, Bool.or_eq_true, List.contains_iff_mem,
    Bool.not_eq_true', decide_eq_false_iff_not, decide_eq_true_eq] at h
  rcases (h i hi).resolve_left hif t ht with h' | h'
  · exact absurd hnd h'
  · rw [Aff.vol6_app, vol6_half]
    have : ((vol6 (lc.getD (t.getD 0 0) 0) (lc.getD (t.getD 1 0) 0) (lc.getD (t.getD 2 0) 0) (lc.getD i 0) : Int) : K) < 0 := by
      exact_mod_cast h'
    exact mul_neg_of_pos_of_neg hA (by linarith)

/-! ## C11 -/

/-- **C11** the faces of a tetrahedron (`faces_TET4`) are a closed oriented surface with the edges of
`edges_TET4`, for every cell with different nodes. -/
theorem C11_TET4_closed {α : Type} [DecidableEq α] (cell : List α) (d : α) (hl : cell.length = 4)
    (hn : cell.Nodup) (a b : α) :
    let D := boundaryEdges faceIdsTET4 cell d
    D.count (a, b) = D.count (b, a) ∧ D.count (a, b) ≤ 1 ∧
      (D.count (a, b) = 1 ↔ [a, b] ∈ entities edgeIdsTET4 cell d ∨ [b, a] ∈ entities edgeIdsTET4 cell d) :=
  closed_of_check (by decide) (by decide) cell d hl hn a b

/-- **C11** the same for hexahedra (`faces_H8`, `edges_H8`). -/
theorem C11_H8_closed {α : Type} [DecidableEq α] (cell : List α) (d : α) (hl : cell.length = 8)
    (hn : cell.Nodup) (a b : α) :
    let D := boundaryEdges faceIdsH8 cell d
    D.count (a, b) = D.count (b, a) ∧ D.count (a, b) ≤ 1 ∧
      (D.count (a, b) = 1 ↔ [a, b] ∈ entities edgeIdsH8 cell d ∨ [b, a] ∈ entities edgeIdsH8 cell d) :=
  closed_of_check (by decide +kernel) (by decide) cell d hl hn a b

/-- **C11** the quadrilaterals of `H8_to_Q4` are the faces of `faces_H8`. -/
theorem C11_H8_to_Q4 : pathH8Q4 = faceIdsH8 := by decide

/-- **C11** faces of a positively oriented tetrahedron are outward: the opposite node is behind each face. -/
theorem C11_TET4_outward (A : Aff K) (hA : 0 < A.det) :
    ∀ f ∈ faceIdsTET4, Outward (fun i => A.app (half (lcTET4.getD i 0))) 4 f := by
  intro f hf
  apply outward_of_check _ A hA
  revert f; decide

/-- **C11** faces of a positively oriented hexahedron are outward. -/
theorem C11_H8_outward (A : Aff K) (hA : 0 < A.det) :
    ∀ f ∈ faceIdsH8, Outward (fun i => A.app (half (lcH8.getD i 0))) 8 f := by
  intro f hf
  apply outward_of_check _ A hA
  revert f; decide +kernel

/-- **C11** the quadrilateral faces of a positively oriented wedge are outward. -/
theorem C11_W6_outward_partial (A : Aff K) (hA : 0 < A.det) :
    ∀ f ∈ faceIdsW6, Outward (fun i => A.app (half (lcW6.getD i 0))) 6 f := by
  intro f hf
  apply outward_of_check _ A hA
  revert f; decide +kernel

/-- **C11** (negation) `faces_W6` assigns to `faces2[:, 1, 3]`, which is outside of the array of shape
`(nE, 2, 3)`: there is no list of triangular faces of a wedge. -/
theorem C11_faces_W6_false : colTable 2 3 faces2W6W = none := by decide

/-- **C11** wedge, with the triangles that the assignments of `faces_W6` would give if the misplaced column were
`2` instead of `3`. Missing from the full claim: the code as it is (`C11_faces_W6_false`). -/
theorem C11_W6_closed_partial {α : Type} [DecidableEq α] (cell : List α) (d : α) (hl : cell.length = 6)
    (hn : cell.Nodup) (a b : α) :
    let D := boundaryEdges (faceIdsW6 ++ [[0, 2, 1], [4, 5, 3]]) cell d
    D.count (a, b) = D.count (b, a) ∧ D.count (a, b) ≤ 1 ∧
      (D.count (a, b) = 1 ↔ [a, b] ∈ entities edgeIdsW6 cell d ∨ [b, a] ∈ entities edgeIdsW6 cell d) :=
  closed_of_check (by decide +kernel) (by decide) cell d hl hn a b

example : (boundaryEdges faceIdsTET4 [7, 8, 9, 12] 0).length = 12 := by decide

/-! ## C14, orientation -/

/-- The piece is the image of the master cell of its kind under an orientation preserving affine map. -/
def PosPiece (pts : Nat → V3 K) (piece : List Nat) (master : List (V3 Int)) : Prop :=
  ∃ B : Aff K, 0 < B.det ∧ ∀ n, n < piece.length → pts (piece.getD n 0) = B.app (half (master.getD n 0))

/-- The same for pieces of plane cells: the direction `c` out of the plane is kept. -/
def PosPiece2 (pts : Nat → V3 K) (c : V3 K) (piece : List Nat) (master : List (V3 Int)) : Prop :=
  ∃ B : Aff K, B.c = c ∧ 0 < B.det ∧ ∀ n, n < piece.length → pts (piece.getD n 0) = B.app (half (master.getD n 0))

/-- An integer affine map in doubled coordinates: `2 ξ(piece n) = O + (master n) · (a, b, c) / 2`. -/
def pieceCheck (lc master : List (V3 Int)) (piece : List Nat) (B : Aff Int) : Bool :=
  decide (0 < B.det) && (List.range piece.length).all fun n =>
    let m := master.getD n 0
    decide ((⟨2 * (lc.getD (piece.getD n 0) 0).x, 2 * (lc.getD (piece.getD n 0) 0).y,
      2 * (lc.getD (piece.getD n 0) 0).z⟩ : V3 Int) =
      ⟨2 * B.o.x + m.x * B.a.x + m.y * B.b.x + m.z * B.c.x, 2 * B.o.y + m.x * B.a.y + m.y * B.b.y + m.z * B.c.y,
        2 * B.o.z + m.x * B.a.z + m.y * B.b.z + m.z * B.c.z⟩)

theorem posPiece_map {lc master : List (V3 Int)} {piece : List Nat} {B : Aff Int}
    (h : pieceCheck lc master piece B = true) (A : Aff K) (hA : 0 < A.det) :
    ∃ C : Aff K, C = A.comp ⟨half B.o, half B.a, half B.b, half B.c⟩ ∧ 0 < C.det ∧
      ∀ n, n < piece.length → A.app (half (lc.getD (piece.getD n 0) 0)) = C.app (half (master.getD n 0)) := by
  simp only [pieceCheck, Bool.and_eq_true, decide_eq_true_eq, List.all_eq_true, List.mem_range] at h
  obtain ⟨h1, h2⟩ := h
  refine ⟨_, rfl, ?_, ?_⟩
  · rw [Aff.det_comp]
    have : (Aff.det (⟨half B.o, half B.a, half B.b, half B.c⟩ : Aff K)) = (B.det : K) / 8 := by
      simp only [Aff.det, det3, half]; push_cast; field_simp; ring
    rw [this]
    have h1' : (0 : K) < (B.det : K) := by exact_mod_cast h1
    exact mul_pos hA (by linarith)
  · intro n hn
    rw [Aff.app_comp]
    congr 1
    have := h2 n hn
    simp only [V3.mk.injEq] at this
    obtain ⟨e1, e2, e3⟩ := this
    have e1' := congrArg (fun z : Int => (z : K)) e1
    have e2' := congrArg (fun z : Int => (z : K)) e2
    have e3' := congrArg (fun z : Int => (z : K)) e3
    simp only [Int.cast_mul, Int.cast_add, Int.cast_ofNat] at e1' e2' e3'
    ext
    · simp only [Aff.app, half, add_x, smul_x]; linear_combination e1' / 4
    · simp only [Aff.app, half, add_y, smul_y]; linear_combination e2' / 4
    · simp only [Aff.app, half, add_z, smul_z]; linear_combination e3' / 4

/-- The affine map through the first corners of a piece, in doubled coordinates: for simplices. -/
def simplexMap (lc : List (V3 Int)) (piece : List Nat) : Aff Int :=
  let p := fun i => lc.getD (piece.getD i 0) 0
  ⟨p 0, p 1 - p 0, p 2 - p 0, p 3 - p 0⟩
def triMap (lc : List (V3 Int)) (piece : List Nat) : Aff Int :=
  let p := fun i => lc.getD (piece.getD i 0) 0
  ⟨p 0, p 1 - p 0, p 2 - p 0, ⟨0, 0, 2⟩⟩
def quadMap (lc : List (V3 Int)) (piece : List Nat) : Aff Int :=
  let p := fun i => lc.getD (piece.getD i 0) 0
  let h := fun v : V3 Int => (⟨v.x / 2, v.y / 2, v.z / 2⟩ : V3 Int)
  ⟨h (p 0 + p 2), h (p 1 - p 0), h (p 3 - p 0), ⟨0, 0, 2⟩⟩
def hexMap (lc : List (V3 Int)) (piece : List Nat) : Aff Int :=
  let p := fun i => lc.getD (piece.getD i 0) 0
  let h := fun v : V3 Int => (⟨v.x / 2, v.y / 2, v.z / 2⟩ : V3 Int)
  ⟨h (p 0 + p 6), h (p 1 - p 0), h (p 3 - p 0), h (p 4 - p 0)⟩
def wedgeMap (lc : List (V3 Int)) (piece : List Nat) : Aff Int :=
  let p := fun i => lc.getD (piece.getD i 0) 0
  let h := fun v : V3 Int => (⟨v.x / 2, v.y / 2, v.z / 2⟩ : V3 Int)
  ⟨h (p 0 + p 3), p 1 - p 0, p 2 - p 0, h (p 3 - p 0)⟩

theorem posPiece_of {lc master : List (V3 Int)} {path : List (List Nat)} {m : List (V3 Int) → List Nat → Aff Int}
    (h : path.all (fun t => pieceCheck lc master t (m lc t)) = true) (A : Aff K) (hA : 0 < A.det) :
    ∀ t ∈ path, PosPiece (fun i => A.app (half (lc.getD i 0))) t master := by
  intro t ht
  rw [List.all_eq_true] at h
  obtain ⟨C, _, h1, h2⟩ := posPiece_map (h t ht) A hA
  exact ⟨C, h1, h2⟩

theorem posPiece2_of {lc master : List (V3 Int)} {path : List (List Nat)} {m : List (V3 Int) → List Nat → Aff Int}
    (h : path.all (fun t => pieceCheck lc master t (m lc t) && decide ((m lc t).c = ⟨0, 0, 2⟩)) = true)
    (A : Aff K) (hA : 0 < A.det) :
    ∀ t ∈ path, PosPiece2 (fun i => A.app (half (lc.getD i 0))) A.c t master := by
  intro t ht
  rw [List.all_eq_true] at h
  have := h t ht
  rw [Bool.and_eq_true, decide_eq_true_eq] at this
  obtain ⟨C, hC, h1, h2⟩ := posPiece_map this.1 A hA
  refine ⟨C, ?_, h1, h2⟩
  rw [hC, this.2]
  ext <;> simp [Aff.comp, Aff.lin, half]

/-- **C14** every piece of a plane cell is an orientation preserving affine copy of its master cell (with its
mid-side nodes, where it has any): `T6_to_T3`, `Q4_to_T3`, `Q8_to_T3`, `Q9_to_Q4`, their grid variants and the
triangulation of 9-noded quadrilaterals. -/
theorem C14_orientation_2d (A : Aff K) (hA : 0 < A.det) :
    (∀ t ∈ pathT6T3, PosPiece2 (fun i => A.app (half (lcT6.getD i 0))) A.c t lcT3) ∧
    (∀ t ∈ pathQ4T3, PosPiece2 (fun i => A.app (half (lcQ4.getD i 0))) A.c t lcT3) ∧
    (∀ t ∈ pathQ4T3Grid, PosPiece2 (fun i => A.app (half (lcGrid4.getD i 0))) A.c t lcT3) ∧
    (∀ t ∈ pathQ8T3, PosPiece2 (fun i => A.app (half (lcQ8.getD i 0))) A.c t lcT3) ∧
    (∀ t ∈ pathQ9Q4, PosPiece2 (fun i => A.app (half (lcQ9.getD i 0))) A.c t lcQ4) ∧
    (∀ t ∈ pathQ9Q4Grid, PosPiece2 (fun i => A.app (half (lcGrid9.getD i 0))) A.c t lcQ4) ∧
    (∀ t ∈ trimapQ9, PosPiece2 (fun i => A.app (half (lcQ9.getD i 0))) A.c t lcT3) ∧
    (∀ t ∈ pathQ9T6, PosPiece2 (fun i => A.app (half (lcGrid9.getD i 0))) A.c t lcT6) :=
  ⟨posPiece2_of (m := triMap) (by decide) A hA, posPiece2_of (m := triMap) (by decide) A hA,
    posPiece2_of (m := triMap) (by decide) A hA, posPiece2_of (m := triMap) (by decide) A hA,
    posPiece2_of (m := quadMap) (by decide) A hA, posPiece2_of (m := quadMap) (by decide) A hA,
    posPiece2_of (m := triMap) (by decide) A hA, posPiece2_of (m := triMap) (by decide) A hA⟩

/-- **C14** the same for solid cells: `H8_to_TET4`, `H27_to_TET10` (mid-side nodes included), `H27_to_H8`,
`W18_to_W6` and `W6_to_TET4`. -/
theorem C14_orientation_3d (A : Aff K) (hA : 0 < A.det) :
    (∀ t ∈ pathH8TET4, PosPiece (fun i => A.app (half (lcH8.getD i 0))) t lcTET4) ∧
    (∀ t ∈ pathH27TET10, PosPiece (fun i => A.app (half (lcH27.getD i 0))) t lcTET10) ∧
    (∀ t ∈ pathH27H8, PosPiece (fun i => A.app (half (lcH27.getD i 0))) t lcH8) ∧
    (∀ t ∈ pathW18W6, PosPiece (fun i => A.app (half (lcW18.getD i 0))) t lcW6) ∧
    (∀ t ∈ pathW6TET4, PosPiece (fun i => A.app (half (lcW6.getD i 0))) t lcTET4) :=
  ⟨posPiece_of (m := simplexMap) (by decide) A hA, posPiece_of (m := simplexMap) (by decide +kernel) A hA,
    posPiece_of (m := hexMap) (by decide +kernel) A hA, posPiece_of (m := wedgeMap) (by decide +kernel) A hA,
    posPiece_of (m := simplexMap) (by decide) A hA⟩

/-- **C14** (negation) the tetrahedra of `W6_to_TET4` overlap, already in the master wedge: the second and the
third tetrahedron use different diagonals of the face `0-2-5-3` (common point `(2/10, 7/10, 2/10)`). -/
theorem C14_W6_to_TET4_false : ¬ Tiles K lcW6 [0, 1, 2, 3, 4, 5] pathW6TET4 4 := by
  intro h
  refine h.disj Aff.one ?_ 1 2 [3, 5, 4, 2] [2, 5, 0, 4] rfl rfl (by decide) ⟨2/10, 7/10, 2/10⟩ ⟨?_, ?_⟩
  · simp [Aff.det, Aff.one, det3]
  · refine ⟨[1/10, 3/10, 2/10, 4/10], rfl, by intro a ha; simp at ha; rcases ha with rfl | rfl | rfl | rfl <;> norm_num,
      by norm_num, ?_⟩
    ext <;> norm_num [cellPts, lincomb, Aff.one, Aff.app, half, lcW6]
  · refine ⟨[3/10, 4/10, 1/10, 2/10], rfl, by intro a ha; simp at ha; rcases ha with rfl | rfl | rfl | rfl <;> norm_num,
      by norm_num, ?_⟩
    ext <;> norm_num [cellPts, lincomb, Aff.one, Aff.app, half, lcW6]

/-- **C14** (negation) `Q9_to_T6` with its default path turns a 9-noded cell in the order of the `Q9` class (the
order `Q9_to_Q4` uses) into triangles with three collinear corners. -/
theorem C14_Q9_to_T6_false (A : Aff K) :
    ∃ t ∈ pathQ9T6, ∀ B : Aff K, (∀ n, n < 3 → A.app (half (lcQ9.getD (t.getD n 0) 0)) = B.app (half (lcT6.getD n 0))) →
      A.det = 0 ∨ B.det = 0 := by
  refine ⟨[0, 8, 2, 4, 5, 1], by decide, fun B h => ?_⟩
  right
  have h0 := h 0 (by norm_num)
  have h1 := h 1 (by norm_num)
  have h2 := h 2 (by norm_num)
  have e : ∀ v w : V3 K, v = w → v.x = w.x ∧ v.y = w.y ∧ v.z = w.z := by rintro v _ rfl; exact ⟨rfl, rfl, rfl⟩
  obtain ⟨a0, b0, c0⟩ := e _ _ h0
  obtain ⟨a1, b1, c1⟩ := e _ _ h1
  obtain ⟨a2, b2, c2⟩ := e _ _ h2
  simp [Aff.app, half, lcQ9, lcQ8, lcQ4, lcT6, lcT3] at a0 b0 c0 a1 b1 c1 a2 b2 c2
  have ex : B.b.x = 2 * B.a.x := by linarith
  have ey : B.b.y = 2 * B.a.y := by linarith
  have ez : B.b.z = 2 * B.a.z := by linarith
  simp only [Aff.det, det3, ex, ey, ez]; ring

/-- The path of `TriMesh.to_triobj` for 6-noded triangles assumes mid-side nodes opposite to the corners (node
`3` on edge `1-2`): on cells in the order of `T6` its first triangle is not positively oriented. -/
theorem C14_triobj_false (A : Aff K) :
    ¬ ∀ t ∈ pathTriobj, PosPiece2 (fun i => A.app (half (lcT6.getD i 0))) A.c t lcT3 ∧ 0 < A.det := by
  intro h
  obtain ⟨⟨B, hc, hd, hB⟩, hA⟩ := h [0, 5, 4] (by decide)
  have h0 := hB 0 (by decide)
  have h1 := hB 1 (by decide)
  have h2 := hB 2 (by decide)
  have e : ∀ v w : V3 K, v = w → v.x = w.x ∧ v.y = w.y ∧ v.z = w.z := by rintro v _ rfl; exact ⟨rfl, rfl, rfl⟩
  obtain ⟨a0, b0, c0⟩ := e _ _ h0
  obtain ⟨a1, b1, c1⟩ := e _ _ h1
  obtain ⟨a2, b2, c2⟩ := e _ _ h2
  simp [Aff.app, half, lcT6, lcT3] at a0 b0 c0 a1 b1 c1 a2 b2 c2
  have ax : B.a.x = A.b.x / 2 := by linarith
  have ay : B.a.y = A.b.y / 2 := by linarith
  have az : B.a.z = A.b.z / 2 := by linarith
  have bx : B.b.x = A.a.x / 2 + A.b.x / 2 := by linarith
  have by' : B.b.y = A.a.y / 2 + A.b.y / 2 := by linarith
  have bz : B.b.z = A.a.z / 2 + A.b.z / 2 := by linarith
  have : B.det = - A.det / 4 := by
    simp only [Aff.det, det3, hc, ax, ay, az, bx, by', bz]; ring
  linarith

end
end PM
