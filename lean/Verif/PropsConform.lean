import Verif.PropsTransform
import Verif.Cells

/-!
# Property C60: splitting a conforming mesh gives a conforming mesh

Cells are split by `transform_topology` (tr.py 62-152) with the paths of `tr.py`. Neighbouring cells share a face
node by node: the nodes of the face of one cell are the nodes of the face of the other, in an order that is a symmetry
of the face (the symmetries of an edge, a triangle, a quadrilateral).
-/

namespace PM

/-! ## specification -/

/-- The symmetries of an edge, a triangle and a quadrilateral, with corner nodes only, or with nodes on the middles of
the edges and (quadrilaterals) in the centre: node `t` of one face meets node `σ[t]` of the other. -/
def symEdge2 : List (List Nat) := [[0, 1], [1, 0]]
@[inherit_doc symEdge2] def symEdge3 : List (List Nat) := [[0, 1, 2], [1, 0, 2]]
@[inherit_doc symEdge2] def symTri3 : List (List Nat) := [[0, 1, 2], [1, 2, 0], [2, 0, 1], [0, 2, 1], [2, 1, 0], [1, 0, 2]]
@[inherit_doc symEdge2] def symTri6 : List (List Nat) := [[0, 1, 2, 3, 4, 5], [1, 2, 0, 4, 5, 3], [2, 0, 1, 5, 3, 4],
  [0, 2, 1, 5, 4, 3], [2, 1, 0, 4, 3, 5], [1, 0, 2, 3, 5, 4]]
@[inherit_doc symEdge2] def symQuad4 : List (List Nat) := [[0, 1, 2, 3], [1, 2, 3, 0], [2, 3, 0, 1], [3, 0, 1, 2],
  [0, 3, 2, 1], [3, 2, 1, 0], [2, 1, 0, 3], [1, 0, 3, 2]]
@[inherit_doc symEdge2] def symQuad9 : List (List Nat) := [[0, 1, 2, 3, 4, 5, 6, 7, 8], [1, 2, 3, 0, 5, 6, 7, 4, 8],
  [2, 3, 0, 1, 6, 7, 4, 5, 8], [3, 0, 1, 2, 7, 4, 5, 6, 8], [0, 3, 2, 1, 7, 6, 5, 4, 8], [3, 2, 1, 0, 6, 5, 4, 7, 8],
  [2, 1, 0, 3, 5, 4, 7, 6, 8], [1, 0, 3, 2, 4, 7, 6, 5, 8]]

/-- The boundary of the cells with all nodes on it: corners, then middles of the edges, then the centre. -/
def bdT6 : List (List Nat) := [[0, 1, 3], [1, 2, 4], [2, 0, 5]]
@[inherit_doc bdT6] def bdQ8 : List (List Nat) := [[0, 1, 4], [1, 2, 5], [2, 3, 6], [3, 0, 7]]
@[inherit_doc bdT6] def bdGrid9 : List (List Nat) := [[0, 6, 3], [6, 8, 7], [8, 2, 5], [2, 0, 1]]
@[inherit_doc bdT6] def bdH27 : List (List Nat) := [[0, 4, 7, 3, 16, 15, 19, 11, 20], [1, 2, 6, 5, 9, 18, 13, 17, 21],
  [0, 1, 5, 4, 8, 17, 12, 16, 22], [2, 3, 7, 6, 10, 19, 14, 18, 23], [0, 3, 2, 1, 11, 10, 9, 8, 24],
  [4, 5, 6, 7, 12, 13, 14, 15, 25]]
@[inherit_doc bdT6] def bdW18 : List (List Nat) := [[0, 2, 1, 8, 7, 6], [3, 4, 5, 9, 10, 11],
  [4, 3, 0, 1, 9, 12, 6, 13, 15], [5, 4, 1, 2, 10, 13, 7, 14, 16], [3, 5, 2, 0, 11, 14, 8, 12, 17]]
/-- All faces of a wedge. -/
def bdW6 : List (List Nat) := [[0, 2, 1], [3, 4, 5]] ++ faceIdsW6

/-- The nodes after the `m` corners of a face are on the middles of its first `e` edges (doubled coordinates). -/
def MidsOK (lc : List (V3 Int)) (m e : Nat) (face : List Nat) : Prop :=
  ∀ t, t < e → lc.getD (face.getD t 0) 0 + lc.getD (face.getD ((t + 1) % m) 0) 0 =
    (2 : Int) • lc.getD (face.getD (m + t) 0) 0

instance (lc : List (V3 Int)) (m e : Nat) (face : List Nat) : Decidable (MidsOK lc m e face) := by
  unfold MidsOK; infer_instance

example : (∀ F ∈ bdT6, MidsOK lcT6 2 1 F) ∧ (∀ F ∈ bdQ8, MidsOK lcQ9 2 1 F) ∧ (∀ F ∈ bdGrid9, MidsOK lcGrid9 2 1 F) ∧
    (∀ F ∈ bdH27, MidsOK lcH27 4 4 F) ∧ (∀ F ∈ bdW18.take 2, MidsOK lcW18 3 3 F) ∧ (∀ F ∈ bdW18.drop 2, MidsOK lcW18 4 4 F) := by
  decide

/-- The centre nodes are in the middle of the diagonals. -/
example : ∀ F ∈ bdH27 ++ [[0, 1, 2, 3, 8, 9, 10, 11, 24]], lcH27.getD (F.getD 0 0) 0 + lcH27.getD (F.getD 2 0) 0 =
    (2 : Int) • lcH27.getD (F.getD 8 0) 0 := by decide
example : ∀ F ∈ bdW18.drop 2, lcW18.getD (F.getD 0 0) 0 + lcW18.getD (F.getD 2 0) 0 =
    (2 : Int) • lcW18.getD (F.getD 8 0) 0 := by decide

/-- Cells `i` and `j` share the face `F` of the first and `G` of the second node by node: node `t` of `F` is node `σ[t]`
of `G`. -/
def ShareFace (topo : Topo) (i j : Nat) (F G σ : List Nat) : Prop :=
  F.length = σ.length ∧ G.length = σ.length ∧
  ∀ t p s q : Nat, F[t]? = some p → σ[t]? = some s → G[s]? = some q → nodeAt topo i p = nodeAt topo j q

/-- The nodes `f` of subcell `k` are on the face `F` of the cell that was split. -/
def OnFace (path : List (List Nat)) (k : Nat) (f F : List Nat) : Prop := ∀ x ∈ f, (nodeAt path k x).any (F.contains ·) = true

instance (path : List (List Nat)) (k : Nat) (f F : List Nat) : Decidable (OnFace path k f F) := by
  unfold OnFace; infer_instance

/-- The nodes of the facet `f` of cell number `c`. -/
def facetNodes (topo : Topo) (c : Nat) (f : List Nat) : List (Option Nat) := f.map fun x => nodeAt topo c x

/-- The subcells of two cells sharing a face share their facets on it: for every facet of a subcell of the first cell on
the face there is a facet of a subcell of the second cell with the same nodes. -/
def Conform (path facets : List (List Nat)) (r : Topo) (i j : Nat) (F G : List Nat) : Prop :=
  ∀ k, k < path.length → ∀ f ∈ facets, OnFace path k f F → ∃ k', k' < path.length ∧ ∃ f' ∈ facets, OnFace path k' f' G ∧
    (facetNodes r (i * path.length + k) f).Perm (facetNodes r (j * path.length + k') f')

/-! ## lifting of a finite table -/

/-- Positions of the nodes of facet `f` of subcell `k` in the cell that is split. -/
def subPos (path : List (List Nat)) (k : Nat) (f : List Nat) : List Nat := f.map fun x => (nodeAt path k x).getD 0

/-- Position in the second cell of the node at position `p` of the face `F` of the first. -/
def across (F G σ : List Nat) (p : Nat) : Nat := G.getD (σ.getD (F.idxOf p) 0) 0

/-- The finite check for one pair of faces and one symmetry. -/
def TableOK (path facets : List (List Nat)) (F G σ : List Nat) : Prop :=
  (∀ s ∈ σ, s < σ.length) ∧
  ∀ k, k < path.length → ∀ f ∈ facets, OnFace path k f F → ∃ k', k' < path.length ∧ ∃ f' ∈ facets, OnFace path k' f' G ∧
    ((subPos path k f).map (across F G σ)).isPerm (subPos path k' f') = true

instance (path facets : List (List Nat)) (F G σ : List Nat) : Decidable (TableOK path facets F G σ) := by
  unfold TableOK; infer_instance

theorem onFace_some {path : List (List Nat)} {k : Nat} {f F : List Nat} (h : OnFace path k f F) {x : Nat} (hx : x ∈ f) :
    ∃ q, nodeAt path k x = some q ∧ q ∈ F := by
  have := h x hx
  cases hq : nodeAt path k x with
  | none => rw [hq] at this; simp at this
  | some q => rw [hq] at this; exact ⟨q, rfl, by simpa using this⟩

theorem nodeAt_transformed {topo : Topo} {path : List (List Nat)} {nSub : Nat} (hP : PathOK topo path nSub) {r : Topo}
    (hr : transformTopology topo path nSub 0 = some r) {i k x q : Nat} (hi : i < topo.length)
    (hx : nodeAt path k x = some q) : nodeAt r (i * path.length + k) x = nodeAt topo i q := by
  obtain ⟨r', hr', _, h⟩ := C09_transform_topology topo path nSub 0 hP
  rw [hr] at hr'
  obtain rfl := Option.some.inj hr'
  have hk : k < path.length := by
    by_contra hc
    simp [nodeAt, List.getElem?_eq_none (Nat.le_of_not_lt hc)] at hx
  obtain ⟨row, h1, _, h2⟩ := h i k hi hk
  simp [nodeAt] at h2 hx ⊢
  rw [h1]
  simpa using h2 x q hx

theorem conform_of_table {topo : Topo} {path facets : List (List Nat)} {nSub : Nat} (hP : PathOK topo path nSub) {r : Topo}
    (hr : transformTopology topo path nSub 0 = some r) {i j : Nat} (hi : i < topo.length) (hj : j < topo.length)
    {F G σ : List Nat} (hT : TableOK path facets F G σ) (hs : ShareFace topo i j F G σ) :
    Conform path facets r i j F G := by
  intro k hk f hf hon
  obtain ⟨k', hk', f', hf', hon', hperm⟩ := hT.2 k hk f hf hon
  refine ⟨k', hk', f', hf', hon', ?_⟩
  have key : ∀ {k f F}, OnFace path k f F → ∀ {c}, c < topo.length → facetNodes r (c * path.length + k) f =
      (subPos path k f).map (nodeAt topo c) := by
    intro k f F hon c hc
    simp only [facetNodes, subPos, List.map_map]
    refine List.map_congr_left fun x hx => ?_
    obtain ⟨q, hq', _⟩ := onFace_some hon hx
    rw [nodeAt_transformed hP hr hc hq', Function.comp, hq']
    rfl
  rw [key hon hi, key hon' hj]
  have h1 : (subPos path k f).map (nodeAt topo i) = ((subPos path k f).map (across F G σ)).map (nodeAt topo j) := by
    rw [List.map_map]
    refine List.map_congr_left fun p hp => ?_
    obtain ⟨x, hx, rfl⟩ := List.mem_map.1 hp
    obtain ⟨p, hq, hpF⟩ := onFace_some hon hx
    rw [hq, Option.getD_some]
    have ht := List.idxOf_lt_length_iff.2 hpF
    have ht' : F.idxOf p < σ.length := hs.1 ▸ ht
    have hsl : σ[F.idxOf p] < G.length := by rw [hs.2.1]; exact hT.1 _ (List.getElem_mem ht')
    have := hs.2.2 (F.idxOf p) p σ[F.idxOf p] G[σ[F.idxOf p]] (by rw [List.getElem?_eq_getElem ht]; simp)
      (List.getElem?_eq_getElem ht') (List.getElem?_eq_getElem hsl)
    rw [this, Function.comp, across]
    simp [List.getD, List.getElem?_eq_getElem ht', List.getElem?_eq_getElem hsl]
  rw [h1]
  exact (List.isPerm_iff.1 hperm).map _

/-- Cells with `n` nodes can be split by a table with columns below `n`. -/
theorem pathOK_of {topo : Topo} {path : List (List Nat)} {nSub n : Nat} (hc : ∀ c ∈ topo, c.length = n)
    (h : ∀ p ∈ path, p.length = nSub ∧ ∀ q ∈ p, q < n) : PathOK topo path nSub :=
  ⟨fun p hp => (h p hp).1, fun c hc' p hp q hq => by rw [hc c hc']; exact (h p hp).2 q hq⟩

/-! ## C60 -/

/-- **C60** Splitting six-noded triangles to three-noded ones. -/
theorem C60_T6_T3 {topo : Topo} (hc : ∀ c ∈ topo, c.length = 6) {r : Topo} (hr : transformTopology topo pathT6T3 3 0 = some r)
    {i j : Nat} (hi : i < topo.length) (hj : j < topo.length) {F G σ : List Nat} (hF : F ∈ bdT6) (hG : G ∈ bdT6)
    (hσ : σ ∈ symEdge3) (hs : ShareFace topo i j F G σ) : Conform pathT6T3 edgeIdsT3 r i j F G :=
  conform_of_table (pathOK_of hc (by decide)) hr hi hj
    ((by decide +kernel : ∀ F ∈ bdT6, ∀ G ∈ bdT6, ∀ σ ∈ symEdge3, TableOK pathT6T3 edgeIdsT3 F G σ) F hF G hG σ hσ) hs

/-- **C60** Splitting nine-noded quadrilaterals to four-noded ones. -/
theorem C60_Q9_Q4 {topo : Topo} (hc : ∀ c ∈ topo, c.length = 9) {r : Topo} (hr : transformTopology topo pathQ9Q4 4 0 = some r)
    {i j : Nat} (hi : i < topo.length) (hj : j < topo.length) {F G σ : List Nat} (hF : F ∈ bdQ8) (hG : G ∈ bdQ8)
    (hσ : σ ∈ symEdge3) (hs : ShareFace topo i j F G σ) : Conform pathQ9Q4 edgeIdsQ4 r i j F G :=
  conform_of_table (pathOK_of hc (by decide)) hr hi hj
    ((by decide +kernel : ∀ F ∈ bdQ8, ∀ G ∈ bdQ8, ∀ σ ∈ symEdge3, TableOK pathQ9Q4 edgeIdsQ4 F G σ) F hF G hG σ hσ) hs

/-- **C60** The same with the nodes in the order of grids (`path="grid"`). -/
theorem C60_Q9_Q4_grid {topo : Topo} (hc : ∀ c ∈ topo, c.length = 9) {r : Topo}
    (hr : transformTopology topo pathQ9Q4Grid 4 0 = some r)
    {i j : Nat} (hi : i < topo.length) (hj : j < topo.length) {F G σ : List Nat} (hF : F ∈ bdGrid9) (hG : G ∈ bdGrid9)
    (hσ : σ ∈ symEdge3) (hs : ShareFace topo i j F G σ) : Conform pathQ9Q4Grid edgeIdsQ4 r i j F G :=
  conform_of_table (pathOK_of hc (by decide)) hr hi hj
    ((by decide +kernel : ∀ F ∈ bdGrid9, ∀ G ∈ bdGrid9, ∀ σ ∈ symEdge3, TableOK pathQ9Q4Grid edgeIdsQ4 F G σ) F hF G hG σ hσ) hs

/-- **C60** Splitting quadrilaterals to triangles. -/
theorem C60_Q4_T3 {topo : Topo} (hc : ∀ c ∈ topo, c.length = 4) {r : Topo} (hr : transformTopology topo pathQ4T3 3 0 = some r)
    {i j : Nat} (hi : i < topo.length) (hj : j < topo.length) {F G σ : List Nat} (hF : F ∈ edgeIdsQ4) (hG : G ∈ edgeIdsQ4)
    (hσ : σ ∈ symEdge2) (hs : ShareFace topo i j F G σ) : Conform pathQ4T3 edgeIdsT3 r i j F G :=
  conform_of_table (pathOK_of hc (by decide)) hr hi hj
    ((by decide +kernel : ∀ F ∈ edgeIdsQ4, ∀ G ∈ edgeIdsQ4, ∀ σ ∈ symEdge2, TableOK pathQ4T3 edgeIdsT3 F G σ) F hF G hG σ hσ) hs

/-- **C60** Splitting eight-noded quadrilaterals to triangles. -/
theorem C60_Q8_T3 {topo : Topo} (hc : ∀ c ∈ topo, c.length = 8) {r : Topo} (hr : transformTopology topo pathQ8T3 3 0 = some r)
    {i j : Nat} (hi : i < topo.length) (hj : j < topo.length) {F G σ : List Nat} (hF : F ∈ bdQ8) (hG : G ∈ bdQ8)
    (hσ : σ ∈ symEdge3) (hs : ShareFace topo i j F G σ) : Conform pathQ8T3 edgeIdsT3 r i j F G :=
  conform_of_table (pathOK_of hc (by decide)) hr hi hj
    ((by decide +kernel : ∀ F ∈ bdQ8, ∀ G ∈ bdQ8, ∀ σ ∈ symEdge3, TableOK pathQ8T3 edgeIdsT3 F G σ) F hF G hG σ hσ) hs

/-- **C60** Splitting 27-noded hexahedra to eight-noded ones. -/
theorem C60_H27_H8 {topo : Topo} (hc : ∀ c ∈ topo, c.length = 27) {r : Topo} (hr : transformTopology topo pathH27H8 8 0 = some r)
    {i j : Nat} (hi : i < topo.length) (hj : j < topo.length) {F G σ : List Nat} (hF : F ∈ bdH27) (hG : G ∈ bdH27)
    (hσ : σ ∈ symQuad9) (hs : ShareFace topo i j F G σ) : Conform pathH27H8 faceIdsH8 r i j F G :=
  conform_of_table (pathOK_of hc (by decide)) hr hi hj
    ((by decide +kernel : ∀ F ∈ bdH27, ∀ G ∈ bdH27, ∀ σ ∈ symQuad9, TableOK pathH27H8 faceIdsH8 F G σ) F hF G hG σ hσ) hs

/-- **C60** Splitting 18-noded wedges to six-noded ones, at triangular and at quadrilateral faces. -/
theorem C60_W18_W6 {topo : Topo} (hc : ∀ c ∈ topo, c.length = 18) {r : Topo} (hr : transformTopology topo pathW18W6 6 0 = some r)
    {i j : Nat} (hi : i < topo.length) (hj : j < topo.length) {F G σ : List Nat} (hF : F ∈ bdW18) (hG : G ∈ bdW18)
    (hσ : σ ∈ symTri6 ++ symQuad9) (hs : ShareFace topo i j F G σ) : Conform pathW18W6 bdW6 r i j F G :=
  conform_of_table (pathOK_of hc (by decide)) hr hi hj
    ((by decide +kernel : ∀ F ∈ bdW18, ∀ G ∈ bdW18, ∀ σ ∈ symTri6 ++ symQuad9, F.length = σ.length → G.length = σ.length →
      TableOK pathW18W6 bdW6 F G σ) F hF G hG σ hσ hs.1 hs.2.1) hs

/-! ### the facets on a face cover it -/

/-- The number of facets of subcells on a face of the cell, and whether they use all nodes of the face. -/
def Covers (path facets : List (List Nat)) (n : Nat) (F : List Nat) : Prop :=
  (((List.range path.length).flatMap fun k => facets.filter fun f => decide (OnFace path k f F)).length = n) ∧
  ∀ p ∈ F, ∃ k, k < path.length ∧ ∃ f ∈ facets, OnFace path k f F ∧ p ∈ subPos path k f

instance (path facets : List (List Nat)) (n : Nat) (F : List Nat) : Decidable (Covers path facets n F) := by
  unfold Covers; infer_instance

/-- **C60** The facets considered above are there: two on every edge with a middle node, one on every plain edge, four on
every face of a quadratic cell, two on every face of a hexahedron split to tetrahedra; together they have all nodes of the
face. -/
theorem C60_facets_cover :
    (∀ F ∈ bdT6, Covers pathT6T3 edgeIdsT3 2 F) ∧ (∀ F ∈ bdQ8, Covers pathQ9Q4 edgeIdsQ4 2 F) ∧
    (∀ F ∈ bdGrid9, Covers pathQ9Q4Grid edgeIdsQ4 2 F) ∧ (∀ F ∈ edgeIdsQ4, Covers pathQ4T3 edgeIdsT3 1 F) ∧
    (∀ F ∈ bdQ8, Covers pathQ8T3 edgeIdsT3 2 F) ∧ (∀ F ∈ bdH27, Covers pathH27H8 faceIdsH8 4 F) ∧
    (∀ F ∈ bdW18, Covers pathW18W6 bdW6 4 F) ∧ (∀ F ∈ faceIdsH8, Covers pathH8TET4 faceIdsTET4 2 F) := by
  decide +kernel

/-! ### inside of the cell -/

/-- A conversion: the path, the number of nodes of the subcells, their facets, the boundary and the number of nodes of the
cells that are split. -/
structure Split where
  path : List (List Nat)
  nSub : Nat
  facets : List (List Nat)
  bd : List (List Nat)
  n : Nat

/-- The conversions considered. -/
def splits : List Split := [⟨pathT6T3, 3, edgeIdsT3, bdT6, 6⟩, ⟨pathQ9Q4, 4, edgeIdsQ4, bdQ8, 9⟩,
  ⟨pathQ9Q4Grid, 4, edgeIdsQ4, bdGrid9, 9⟩, ⟨pathQ4T3, 3, edgeIdsT3, edgeIdsQ4, 4⟩, ⟨pathQ8T3, 3, edgeIdsT3, bdQ8, 8⟩,
  ⟨pathH27H8, 8, faceIdsH8, bdH27, 27⟩, ⟨pathW18W6, 6, bdW6, bdW18, 18⟩, ⟨pathH8TET4, 4, faceIdsTET4, faceIdsH8, 8⟩]

/-- Facets of other subcells with the same nodes (by positions in the cell). -/
def mates (S : Split) (k : Nat) (f : List Nat) : List (Nat × List Nat) :=
  (List.range S.path.length).flatMap fun k' => (S.facets.filter fun f' => decide (k' ≠ k) &&
    (subPos S.path k f).isPerm (subPos S.path k' f')).map fun f' => (k', f')

/-- The finite check. -/
def InsideOK (S : Split) : Prop :=
  (∀ p ∈ S.path, p.length = S.nSub ∧ ∀ q ∈ p, q < S.n) ∧ (∀ f ∈ S.facets, ∀ x ∈ f, x < S.nSub) ∧
  ∀ k, k < S.path.length → ∀ f ∈ S.facets, (mates S k f).length = if ∃ F ∈ S.bd, OnFace S.path k f F then 0 else 1

instance (S : Split) : Decidable (InsideOK S) := by
  unfold InsideOK; infer_instance

theorem inside_tables : ∀ S ∈ splits, InsideOK S := by
  decide +kernel

theorem perm_of_map_inj {α β : Type} {g : α → β} {h : β → α} {l l' : List α} (hl : ∀ x ∈ l, h (g x) = x)
    (hl' : ∀ x ∈ l', h (g x) = x) : (l.map g).Perm (l'.map g) ↔ l.Perm l' := by
  refine ⟨fun hp => ?_, fun hp => hp.map g⟩
  have := hp.map h
  rw [List.map_map, List.map_map, List.map_congr_left (f := h ∘ g) (g := id) hl,
    List.map_congr_left (f := h ∘ g) (g := id) hl', List.map_id, List.map_id] at this
  exact this

/-- **C60** Inside of a cell: a facet of a subcell on the boundary of the cell is a facet of no other subcell; every other
facet is a facet of exactly one other subcell of the cell, once. -/
theorem C60_inside {S : Split} (hS : S ∈ splits) {topo : Topo} (hc : ∀ c ∈ topo, c.length = S.n ∧ c.Nodup) {r : Topo}
    (hr : transformTopology topo S.path S.nSub 0 = some r) {i k : Nat} (hi : i < topo.length) (hk : k < S.path.length)
    {f : List Nat} (hf : f ∈ S.facets) :
    ((∃ F ∈ S.bd, OnFace S.path k f F) → ∀ k' f', k' < S.path.length → k' ≠ k → f' ∈ S.facets →
      ¬ (facetNodes r (i * S.path.length + k) f).Perm (facetNodes r (i * S.path.length + k') f')) ∧
    ((¬ ∃ F ∈ S.bd, OnFace S.path k f F) → ∃ k₁ f₁, k₁ < S.path.length ∧ k₁ ≠ k ∧ f₁ ∈ S.facets ∧
      ∀ k' f', k' < S.path.length → k' ≠ k → f' ∈ S.facets →
        ((facetNodes r (i * S.path.length + k) f).Perm (facetNodes r (i * S.path.length + k') f') ↔ k' = k₁ ∧ f' = f₁)) := by
  obtain ⟨h1, h2, h3⟩ := inside_tables S hS
  have hP : PathOK topo S.path S.nSub := pathOK_of (fun c h => (hc c h).1) h1
  have hpos : ∀ k, k < S.path.length → ∀ f ∈ S.facets, ∀ x ∈ f, ∃ q, nodeAt S.path k x = some q ∧ q < S.n := by
    intro k hk f hf x hx
    have hp := h1 _ (List.getElem_mem hk)
    have hxl : x < S.path[k].length := hp.1 ▸ h2 f hf x hx
    exact ⟨S.path[k][x], by simp [nodeAt, List.getElem?_eq_getElem hk, List.getElem?_eq_getElem hxl],
      hp.2 _ (List.getElem_mem hxl)⟩
  have key : ∀ k, k < S.path.length → ∀ f ∈ S.facets, facetNodes r (i * S.path.length + k) f =
      (subPos S.path k f).map fun p => topo[i][p]? := by
    intro k hk f hf
    simp only [facetNodes, subPos, List.map_map]
    refine List.map_congr_left fun x hx => ?_
    obtain ⟨q, hq, _⟩ := hpos k hk f hf x hx
    rw [nodeAt_transformed hP hr hi hq, Function.comp, hq]
    simp [nodeAt, List.getElem?_eq_getElem hi]
  have hinv : ∀ k, k < S.path.length → ∀ f ∈ S.facets, ∀ p ∈ subPos S.path k f,
      topo[i].idxOf ((topo[i][p]?).getD 0) = p := by
    intro k hk f hf p hp
    obtain ⟨x, hx, rfl⟩ := List.mem_map.1 hp
    obtain ⟨q, hq, hqn⟩ := hpos k hk f hf x hx
    rw [hq, Option.getD_some]
    have hql : q < topo[i].length := by rw [(hc _ (List.getElem_mem hi)).1]; exact hqn
    rw [List.getElem?_eq_getElem hql, Option.getD_some]
    exact (hc _ (List.getElem_mem hi)).2.idxOf_getElem q hql
  have hiff : ∀ k' f', k' < S.path.length → k' ≠ k → f' ∈ S.facets →
      ((facetNodes r (i * S.path.length + k) f).Perm (facetNodes r (i * S.path.length + k') f') ↔ (k', f') ∈ mates S k f) := by
    intro k' f' hk' hne hf'
    rw [key k hk f hf, key k' hk' f' hf', perm_of_map_inj (h := fun o => topo[i].idxOf (o.getD 0)) (hinv k hk f hf)
      (hinv k' hk' f' hf')]
    simp only [mates, List.mem_flatMap, List.mem_range, List.mem_map, List.mem_filter, Bool.and_eq_true, decide_eq_true_eq,
      List.isPerm_iff, Prod.mk.injEq]
    constructor
    · intro h; exact ⟨k', hk', f', ⟨hf', hne, h⟩, rfl, rfl⟩
    · rintro ⟨a, _, b, ⟨_, _, h⟩, rfl, rfl⟩; exact h
  have hlen := h3 k hk f hf
  constructor
  · intro hF k' f' hk' hne hf' hp
    rw [if_pos hF, List.length_eq_zero_iff] at hlen
    rw [hiff k' f' hk' hne hf', hlen] at hp
    exact absurd hp (by simp)
  · intro hF
    rw [if_neg hF, List.length_eq_one_iff] at hlen
    obtain ⟨⟨k₁, f₁⟩, hm⟩ := hlen
    have hmem : (k₁, f₁) ∈ mates S k f := by rw [hm]; simp
    have hprop := hmem
    simp only [mates, List.mem_flatMap, List.mem_range, List.mem_map, List.mem_filter, Bool.and_eq_true, decide_eq_true_eq,
      Prod.mk.injEq] at hprop
    obtain ⟨a, ha, b, ⟨hb, hne, _⟩, rfl, rfl⟩ := hprop
    refine ⟨a, b, ha, hne, hb, fun k' f' hk' hne' hf' => ?_⟩
    rw [hiff k' f' hk' hne' hf', hm]
    simp

/-! ### tetrahedra -/

/-- The corners of a hexahedron that the tetrahedron in its middle uses. -/
def evenH8 : List Nat := [0, 2, 5, 7]

/-- Both cells have the same nodes of the face at corners of the tetrahedron in the middle. -/
def SameDiagonal (F G σ : List Nat) : Prop :=
  ∀ t, t < 4 → (F.getD t 0 ∈ evenH8 ↔ G.getD (σ.getD t 0) 0 ∈ evenH8)

instance (F G σ : List Nat) : Decidable (SameDiagonal F G σ) := by unfold SameDiagonal; infer_instance

/-- **C60** Splitting hexahedra to tetrahedra. Missing: faces at which the cells have different diagonals. Full statement:
without `hd`; disproved by `C60_H8_TET4_false`. -/
theorem C60_H8_TET4_partial {topo : Topo} (hc : ∀ c ∈ topo, c.length = 8) {r : Topo}
    (hr : transformTopology topo pathH8TET4 4 0 = some r)
    {i j : Nat} (hi : i < topo.length) (hj : j < topo.length) {F G σ : List Nat} (hF : F ∈ faceIdsH8) (hG : G ∈ faceIdsH8)
    (hσ : σ ∈ symQuad4) (hs : ShareFace topo i j F G σ) (hd : SameDiagonal F G σ) :
    Conform pathH8TET4 faceIdsTET4 r i j F G :=
  conform_of_table (pathOK_of hc (by decide)) hr hi hj
    ((by decide +kernel : ∀ F ∈ faceIdsH8, ∀ G ∈ faceIdsH8, ∀ σ ∈ symQuad4, SameDiagonal F G σ →
      TableOK pathH8TET4 faceIdsTET4 F G σ) F hF G hG σ hσ hd) hs

/-- The faces of a ten-noded tetrahedron with all nodes. -/
def bdTET10 : List (List Nat) := [[0, 1, 3, 4, 8, 7], [1, 2, 3, 5, 9, 8], [2, 0, 3, 6, 7, 9], [0, 2, 1, 6, 5, 4]]

example : ∀ F ∈ bdTET10, MidsOK lcTET10 3 3 F := by decide

/-- **C60** Splitting 27-noded hexahedra to ten-noded tetrahedra. Missing: as above, disproved by `C60_H27_TET10_false`. -/
theorem C60_H27_TET10_partial {topo : Topo} (hc : ∀ c ∈ topo, c.length = 27) {r : Topo}
    (hr : transformTopology topo pathH27TET10 10 0 = some r)
    {i j : Nat} (hi : i < topo.length) (hj : j < topo.length) {F G σ : List Nat} (hF : F ∈ bdH27) (hG : G ∈ bdH27)
    (hσ : σ ∈ symQuad9) (hs : ShareFace topo i j F G σ) (hd : SameDiagonal F G σ) :
    Conform pathH27TET10 bdTET10 r i j F G :=
  conform_of_table (pathOK_of hc (by decide)) hr hi hj
    ((by decide +kernel : ∀ F ∈ bdH27, ∀ G ∈ bdH27, ∀ σ ∈ symQuad9, SameDiagonal F G σ →
      TableOK pathH27TET10 bdTET10 F G σ) F hF G hG σ hσ hd) hs

/-- **C60** Splitting wedges to tetrahedra, at triangular faces. Missing: quadrilateral faces, see `C60_W6_TET4_false`. -/
theorem C60_W6_TET4_partial {topo : Topo} (hc : ∀ c ∈ topo, c.length = 6) {r : Topo}
    (hr : transformTopology topo pathW6TET4 4 0 = some r)
    {i j : Nat} (hi : i < topo.length) (hj : j < topo.length) {F G σ : List Nat} (hF : F ∈ bdW6.take 2) (hG : G ∈ bdW6.take 2)
    (hσ : σ ∈ symTri3) (hs : ShareFace topo i j F G σ) :
    Conform pathW6TET4 faceIdsTET4 r i j F G :=
  conform_of_table (pathOK_of hc (by decide)) hr hi hj
    ((by decide +kernel : ∀ F ∈ bdW6.take 2, ∀ G ∈ bdW6.take 2, ∀ σ ∈ symTri3,
      TableOK pathW6TET4 faceIdsTET4 F G σ) F hF G hG σ hσ) hs

/-! ### witnesses -/

instance (path facets : List (List Nat)) (r : Topo) (i j : Nat) (F G : List Nat) :
    Decidable (Conform path facets r i j F G) := by
  unfold Conform; infer_instance

theorem shareFace_of {topo : Topo} {i j : Nat} {F G σ : List Nat} (h1 : F.length = σ.length) (h2 : G.length = σ.length)
    (h : ∀ t, t < F.length → nodeAt topo i (F.getD t 0) = nodeAt topo j (G.getD (σ.getD t 0) 0)) :
    ShareFace topo i j F G σ := by
  refine ⟨h1, h2, fun t p s q hp hs hq => ?_⟩
  have ht : t < F.length := (List.getElem?_eq_some_iff.1 hp).1
  have := h t ht
  simpa [List.getD, hp, hs, hq] using this

/-- Two hexahedra side by side, numbered alike. -/
def twoH8 : Topo := [[0, 1, 2, 3, 4, 5, 6, 7], [1, 8, 9, 2, 5, 10, 11, 6]]

/-- **C60** Hexahedra numbered alike, as in every grid, are split along different diagonals of their common face. -/
theorem C60_H8_TET4_false : ¬ ∀ (topo r : Topo) (i j : Nat) (F G σ : List Nat), (∀ c ∈ topo, c.length = 8 ∧ c.Nodup) →
    transformTopology topo pathH8TET4 4 0 = some r → i < topo.length → j < topo.length → F ∈ faceIdsH8 → G ∈ faceIdsH8 →
    σ ∈ symQuad4 → ShareFace topo i j F G σ → Conform pathH8TET4 faceIdsTET4 r i j F G := by
  intro hall
  have := hall twoH8 _ 0 1 [1, 2, 6, 5] [0, 4, 7, 3] [0, 3, 2, 1] (by decide) (by decide +kernel : _ = some [[1, 2, 0, 5],
    [3, 0, 2, 7], [5, 4, 7, 0], [6, 5, 7, 2], [0, 2, 7, 5], [8, 9, 1, 10], [2, 1, 9, 6], [10, 5, 6, 1], [11, 10, 6, 9],
    [1, 9, 6, 10]]) (by decide) (by decide) (by decide) (by decide) (by decide)
    (shareFace_of (by decide) (by decide) (by decide))
  revert this
  decide +kernel

/-- Two 27-noded hexahedra side by side, numbered alike. -/
def twoH27 : Topo := [List.range 27, [1, 28, 29, 2, 5, 32, 33, 6, 35, 36, 37, 9, 39, 40, 41, 13, 17, 44, 45, 18, 21, 48, 49,
  50, 51, 52, 53]]

/-- **C60** The same for 27-noded hexahedra and ten-noded tetrahedra. -/
theorem C60_H27_TET10_false : ¬ ∀ (topo r : Topo) (i j : Nat) (F G σ : List Nat), (∀ c ∈ topo, c.length = 27 ∧ c.Nodup) →
    transformTopology topo pathH27TET10 10 0 = some r → i < topo.length → j < topo.length → F ∈ bdH27 → G ∈ bdH27 →
    σ ∈ symQuad9 → ShareFace topo i j F G σ → Conform pathH27TET10 bdTET10 r i j F G := by
  intro hall
  obtain ⟨r, hr, _⟩ := C09_transform_topology twoH27 pathH27TET10 10 0 (pathOK_of (n := 27) (by decide) (by decide))
  have := hall twoH27 r 0 1 [1, 2, 6, 5, 9, 18, 13, 17, 21] [0, 4, 7, 3, 16, 15, 19, 11, 20] [0, 3, 2, 1, 7, 6, 5, 4, 8]
    (by decide +kernel) hr (by decide) (by decide) (by decide) (by decide) (by decide)
    (shareFace_of (by decide) (by decide) (by decide +kernel))
  have hr' : some r = transformTopology twoH27 pathH27TET10 10 0 := hr.symm
  have hv : ∀ r, some r = transformTopology twoH27 pathH27TET10 10 0 → ¬ Conform pathH27TET10 bdTET10 r 0 1
      [1, 2, 6, 5, 9, 18, 13, 17, 21] [0, 4, 7, 3, 16, 15, 19, 11, 20] := by
    have : ((transformTopology twoH27 pathH27TET10 10 0).all fun r => !decide (Conform pathH27TET10 bdTET10 r 0 1
      [1, 2, 6, 5, 9, 18, 13, 17, 21] [0, 4, 7, 3, 16, 15, 19, 11, 20])) = true := by decide +kernel
    intro r hr
    rw [← hr] at this
    simpa using this
  exact hv r hr' this

/-- **C60** Two wedges with a common quadrilateral face. The table of `W6_to_TET4` has only one triangle on the first
quadrilateral, and no matching one on the others. -/
theorem C60_W6_TET4_false : ¬ ∀ (topo r : Topo) (i j : Nat) (F G σ : List Nat), (∀ c ∈ topo, c.length = 6 ∧ c.Nodup) →
    transformTopology topo pathW6TET4 4 0 = some r → i < topo.length → j < topo.length → F ∈ bdW6 → G ∈ bdW6 →
    σ ∈ symQuad4 → ShareFace topo i j F G σ → Conform pathW6TET4 faceIdsTET4 r i j F G := by
  intro hall
  have := hall [[0, 1, 2, 3, 4, 5], [6, 1, 0, 7, 4, 3]] _ 1 0 [5, 4, 1, 2] [4, 3, 0, 1] [1, 0, 3, 2] (by decide)
    (by decide +kernel : _ = some [[0, 1, 2, 4], [3, 5, 4, 2], [2, 5, 0, 4], [6, 1, 0, 4], [7, 3, 4, 0], [0, 3, 6, 4]])
    (by decide) (by decide) (by decide) (by decide) (by decide) (shareFace_of (by decide) (by decide) (by decide))
  revert this
  decide +kernel

/-! ### examples -/

/-- Two six-noded triangles with a common edge, numbered in opposite directions. -/
example : ShareFace [[0, 1, 2, 3, 4, 5], [2, 1, 6, 4, 7, 8]] 0 1 [1, 2, 4] [0, 1, 3] [1, 0, 2] ∧
    transformTopology [[0, 1, 2, 3, 4, 5], [2, 1, 6, 4, 7, 8]] pathT6T3 3 0 =
      some [[0, 3, 5], [3, 1, 4], [5, 4, 2], [5, 3, 4], [2, 4, 8], [4, 1, 7], [8, 7, 6], [8, 4, 7]] :=
  ⟨shareFace_of (by decide) (by decide) (by decide), by decide +kernel⟩

/-- Two 27-noded hexahedra with a common face. -/
example : ShareFace twoH27 0 1 [1, 2, 6, 5, 9, 18, 13, 17, 21] [0, 4, 7, 3, 16, 15, 19, 11, 20] [0, 3, 2, 1, 7, 6, 5, 4, 8] :=
  shareFace_of (by decide) (by decide) (by decide +kernel)

/-- Two hexahedra with a common face, the second turned by a right angle, so that the diagonals agree. -/
example : ShareFace [[0, 1, 2, 3, 4, 5, 6, 7], [2, 1, 8, 9, 6, 5, 10, 11]] 0 1 [1, 2, 6, 5] [0, 1, 5, 4] [1, 0, 3, 2] ∧
    SameDiagonal [1, 2, 6, 5] [0, 1, 5, 4] [1, 0, 3, 2] :=
  ⟨shareFace_of (by decide) (by decide) (by decide), by decide⟩

/-- Two wedges with a common quadrilateral face, two with a common triangle. -/
example : ShareFace [[0, 1, 2, 3, 4, 5], [6, 1, 0, 7, 4, 3], [3, 4, 5, 8, 9, 10]] 0 1 [4, 3, 0, 1] [5, 4, 1, 2] [1, 0, 3, 2] ∧
    ShareFace [[0, 1, 2, 3, 4, 5], [6, 1, 0, 7, 4, 3], [3, 4, 5, 8, 9, 10]] 0 2 [3, 4, 5] [0, 2, 1] [0, 2, 1] :=
  ⟨shareFace_of (by decide) (by decide) (by decide), shareFace_of (by decide) (by decide) (by decide)⟩

end PM
