import Verif.PropsGridFit
import Verif.PropsDiagExact

/-!
# C129: exactly which grids of tetrahedra fit together

Tetrahedra made of the hexahedra of a grid fit together if there is one hexahedron only; tetrahedra of an extruded plane grid if there is one row of
cells only.
-/

namespace PM
open V3

section
variable {K : Type} [Field K] [LinearOrder K] [IsStrictOrderedRing K]

/-! ## crossing diagonals -/

/-- If diagonals of two cells cross, the crossing is on the same side as the common nodes. -/
theorem crossing {ι : Type} {pts : Nat → V3 K} {T : Topo} (hf : FaceToFace pts T) {no : ι → Nat} {S : ι → Prop}
    (hinj : ∀ p q, S p → S q → no p = no q → p = q) {L L' : List ι} (hL : ∀ q ∈ L, S q) (hL' : ∀ q ∈ L', S q) (h : L.map no ∈ T) (h' : L'.map no ∈ T)
    {a b c d : ι} (ha : a ∈ L) (hb : b ∈ L) (hc : c ∈ L') (hd : d ∈ L') (e : mid (pts (no a)) (pts (no b)) = mid (pts (no c)) (pts (no d)))
    (n : V3 K) (k : K) (hn : ∀ q ∈ L, q ∈ L' → 0 ≤ dot n (pts (no q)) + k) : 0 ≤ dot n (mid (pts (no a)) (pts (no b))) + k := by
  have two : ∀ (p q : V3 K), Hull [p, q] (mid p q) := by
    intro p q
    refine ⟨[1 / 2, 1 / 2], rfl, ?_, by norm_num, ?_⟩
    · intro x hx
      have : x = 1 / 2 := by simpa using hx
      rw [this]; norm_num
    · ext <;> simp [lincomb, mid] <;> ring
  have hull : ∀ {L : List ι} {a b : ι}, a ∈ L → b ∈ L → Hull ((L.map no).map pts) (mid (pts (no a)) (pts (no b))) := by
    intro L a b ha hb
    refine hull_mono ?_ (two _ _)
    intro q hq
    simp only [List.mem_cons, List.not_mem_nil, or_false] at hq
    rcases hq with rfl | rfl
    · exact List.mem_map_of_mem (List.mem_map_of_mem ha)
    · exact List.mem_map_of_mem (List.mem_map_of_mem hb)
  have := hf _ h _ h' _ (hull ha hb) (e ▸ hull hc hd)
  refine hull_nonneg this n k ?_
  intro x hx
  obtain ⟨m, hm, rfl⟩ := List.mem_map.1 hx
  obtain ⟨h1, h2⟩ := List.mem_filter.1 hm
  obtain ⟨q, hq, rfl⟩ := List.mem_map.1 h1
  have h2 : no q ∈ L'.map no := by simpa using h2
  obtain ⟨q', hq', e'⟩ := List.mem_map.1 h2
  obtain rfl := hinj q' q (hL' _ hq') (hL _ hq) e'
  exact hn _ hq hq'

/-! ## tetrahedra of hexahedra -/

/-- The five tetrahedra of a cell of a lattice. -/
def latTets (p : Nat × Nat × Nat) : List (List (Nat × Nat × Nat)) :=
  [[(p.1 + 1, p.2.1, p.2.2), (p.1 + 1, p.2.1 + 1, p.2.2), (p.1, p.2.1, p.2.2), (p.1 + 1, p.2.1, p.2.2 + 1)],
   [(p.1, p.2.1 + 1, p.2.2), (p.1, p.2.1, p.2.2), (p.1 + 1, p.2.1 + 1, p.2.2), (p.1, p.2.1 + 1, p.2.2 + 1)],
   [(p.1 + 1, p.2.1, p.2.2 + 1), (p.1, p.2.1, p.2.2 + 1), (p.1, p.2.1 + 1, p.2.2 + 1), (p.1, p.2.1, p.2.2)],
   [(p.1 + 1, p.2.1 + 1, p.2.2 + 1), (p.1 + 1, p.2.1, p.2.2 + 1), (p.1, p.2.1 + 1, p.2.2 + 1), (p.1 + 1, p.2.1 + 1, p.2.2)],
   [(p.1, p.2.1, p.2.2), (p.1 + 1, p.2.1 + 1, p.2.2), (p.1, p.2.1 + 1, p.2.2 + 1), (p.1 + 1, p.2.1, p.2.2 + 1)]]

theorem transformed_tets (l : List (Nat × Nat × Nat)) (no : Nat × Nat × Nat → Nat) :
    transformed (l.map fun p => (latCell p.1 p.2.1 p.2.2).map no) pathH8TET4 0 = (l.flatMap latTets).map (List.map no) := by
  rw [transformed, List.flatMap_map, List.map_flatMap]
  congr 1

theorem tetsH8 {ax ay az : Axis K} (hx : ax.N = 2) (hy : ay.N = 2) (hz : az.N = 2) {T : List (List Int)}
    (h : transformTopology (addStart 0 (gridTopo [ax, ay, az])) [pathH8] pathH8.length 0 = some T) {R : Topo} (hR : toTetrahedra .H8 (asTopo T) = some R) :
    R = ((latCells ax.n ay.n az.n).flatMap latTets).map (List.map (latNo ay.n az.n)) := by
  rw [hexTopo ax ay az hx hy hz h] at hR
  change transformTopology _ pathH8TET4 4 0 = some R at hR
  rw [transformTopology_eq (pathOK_of_width (w := 8) (by
    intro r hr
    obtain ⟨p, _, rfl⟩ := List.mem_map.1 hr
    rfl) (by decide)), transformed_tets] at hR
  exact (Option.some.inj hR).symm

theorem latTets_inCell {p : Nat × Nat × Nat} {L : List (Nat × Nat × Nat)} (h : L ∈ latTets p) : L.Nodup ∧
    ∀ q ∈ L, (p.1 ≤ q.1 ∧ q.1 ≤ p.1 + 1) ∧ (p.2.1 ≤ q.2.1 ∧ q.2.1 ≤ p.2.1 + 1) ∧ (p.2.2 ≤ q.2.2 ∧ q.2.2 ≤ p.2.2 + 1) := by
  simp only [latTets, List.mem_cons, List.not_mem_nil, or_false] at h
  obtain ⟨i, j, k⟩ := p
  rcases h with rfl | rfl | rfl | rfl | rfl <;> refine ⟨by simp, ?_⟩ <;>
    simp only [List.forall_mem_cons, List.not_mem_nil, false_implies, implies_true, and_true] <;> omega

omit [LinearOrder K] [IsStrictOrderedRing K] in
/-- The weights of a point of one of the five tetrahedra of a box vanish at four corners. -/
theorem tet_zeros {L : List (Nat × Nat × Nat)} (h : L ∈ latTets (0, 0, 0)) {G : Nat × Nat × Nat → K} (hG : ∀ q, q ∉ L → G q = 0) :
    (G (0, 1, 0) = 0 ∧ G (0, 0, 1) = 0 ∧ G (0, 1, 1) = 0 ∧ G (1, 1, 1) = 0) ∨
    (G (1, 0, 0) = 0 ∧ G (0, 0, 1) = 0 ∧ G (1, 0, 1) = 0 ∧ G (1, 1, 1) = 0) ∨
    (G (1, 0, 0) = 0 ∧ G (0, 1, 0) = 0 ∧ G (1, 1, 0) = 0 ∧ G (1, 1, 1) = 0) ∨
    (G (0, 0, 0) = 0 ∧ G (1, 0, 0) = 0 ∧ G (0, 1, 0) = 0 ∧ G (0, 0, 1) = 0) ∨
    (G (1, 0, 0) = 0 ∧ G (0, 1, 0) = 0 ∧ G (0, 0, 1) = 0 ∧ G (1, 1, 1) = 0) := by
  simp only [latTets, List.mem_cons, List.not_mem_nil, or_false] at h
  rcases h with rfl | rfl | rfl | rfl | rfl
  · exact .inl ⟨hG _ (by decide), hG _ (by decide), hG _ (by decide), hG _ (by decide)⟩
  · exact .inr (.inl ⟨hG _ (by decide), hG _ (by decide), hG _ (by decide), hG _ (by decide)⟩)
  · exact .inr (.inr (.inl ⟨hG _ (by decide), hG _ (by decide), hG _ (by decide), hG _ (by decide)⟩))
  · exact .inr (.inr (.inr (.inl ⟨hG _ (by decide), hG _ (by decide), hG _ (by decide), hG _ (by decide)⟩)))
  · exact .inr (.inr (.inr (.inr ⟨hG _ (by decide), hG _ (by decide), hG _ (by decide), hG _ (by decide)⟩)))

omit [LinearOrder K] [IsStrictOrderedRing K] in
theorem sum_box (f : Nat × Nat × Nat → K) : ∑ q ∈ Finset.range 2 ×ˢ Finset.range 2 ×ˢ Finset.range 2, f q =
    f (0, 0, 0) + f (0, 0, 1) + (f (0, 1, 0) + f (0, 1, 1)) + (f (1, 0, 0) + f (1, 0, 1) + (f (1, 1, 0) + f (1, 1, 1))) := by
  simp [Finset.sum_product, Finset.sum_range_succ]

set_option maxHeartbeats 4000000 in
/-- Weights of the corners of a box at which four of them vanish, as in the five tetrahedra, are determined by their sums over faces. -/
theorem five_weights {u0 u1 u2 u3 u4 u5 u6 u7 v0 v1 v2 v3 v4 v5 v6 v7 : K} (o : u0 + u1 + (u2 + u3) + (u4 + u5 + (u6 + u7)) = 1)
    (o' : v0 + v1 + (v2 + v3) + (v4 + v5 + (v6 + v7)) = 1) (sx : u4 + u5 + (u6 + u7) = v4 + v5 + (v6 + v7))
    (sy : u2 + u3 + (u6 + u7) = v2 + v3 + (v6 + v7)) (sz : u1 + u3 + (u5 + u7) = v1 + v3 + (v5 + v7))
    (t : (u2 = 0 ∧ u1 = 0 ∧ u3 = 0 ∧ u7 = 0) ∨ (u4 = 0 ∧ u1 = 0 ∧ u5 = 0 ∧ u7 = 0) ∨ (u4 = 0 ∧ u2 = 0 ∧ u6 = 0 ∧ u7 = 0) ∨
      (u0 = 0 ∧ u4 = 0 ∧ u2 = 0 ∧ u1 = 0) ∨ (u4 = 0 ∧ u2 = 0 ∧ u1 = 0 ∧ u7 = 0))
    (t' : (v2 = 0 ∧ v1 = 0 ∧ v3 = 0 ∧ v7 = 0) ∨ (v4 = 0 ∧ v1 = 0 ∧ v5 = 0 ∧ v7 = 0) ∨ (v4 = 0 ∧ v2 = 0 ∧ v6 = 0 ∧ v7 = 0) ∨
      (v0 = 0 ∧ v4 = 0 ∧ v2 = 0 ∧ v1 = 0) ∨ (v4 = 0 ∧ v2 = 0 ∧ v1 = 0 ∧ v7 = 0))
    (a0 : 0 ≤ u0) (a1 : 0 ≤ u1) (a2 : 0 ≤ u2) (a3 : 0 ≤ u3) (a4 : 0 ≤ u4) (a5 : 0 ≤ u5) (a6 : 0 ≤ u6) (a7 : 0 ≤ u7)
    (b0 : 0 ≤ v0) (b1 : 0 ≤ v1) (b2 : 0 ≤ v2) (b3 : 0 ≤ v3) (b4 : 0 ≤ v4) (b5 : 0 ≤ v5) (b6 : 0 ≤ v6) (b7 : 0 ≤ v7) :
    (u0 = v0 ∧ u1 = v1 ∧ u2 = v2 ∧ u3 = v3) ∧ (u4 = v4 ∧ u5 = v5 ∧ u6 = v6 ∧ u7 = v7) := by
  rcases t with ⟨rfl, rfl, rfl, rfl⟩ | ⟨rfl, rfl, rfl, rfl⟩ | ⟨rfl, rfl, rfl, rfl⟩ | ⟨rfl, rfl, rfl, rfl⟩ | ⟨rfl, rfl, rfl, rfl⟩ <;>
  rcases t' with ⟨rfl, rfl, rfl, rfl⟩ | ⟨rfl, rfl, rfl, rfl⟩ | ⟨rfl, rfl, rfl, rfl⟩ | ⟨rfl, rfl, rfl, rfl⟩ | ⟨rfl, rfl, rfl, rfl⟩ <;>
  refine ⟨⟨?_, ?_, ?_, ?_⟩, ?_, ?_, ?_, ?_⟩ <;> linarith

theorem tets_unique {X Y Z : Nat → K} (hX : X 0 < X 1) (hY : Y 0 < Y 1) (hZ : Z 0 < Z 1) {L L' : List (Nat × Nat × Nat)} (h : L ∈ latTets (0, 0, 0))
    (h' : L' ∈ latTets (0, 0, 0)) {P : V3 K} {G G' : Nat × Nat × Nat → K}
    (hG : HullWeights (fun q : Nat × Nat × Nat => (⟨X q.1, Y q.2.1, Z q.2.2⟩ : V3 K)) (Finset.range 2 ×ˢ Finset.range 2 ×ˢ Finset.range 2) L P G)
    (hG' : HullWeights (fun q : Nat × Nat × Nat => (⟨X q.1, Y q.2.1, Z q.2.2⟩ : V3 K)) (Finset.range 2 ×ˢ Finset.range 2 ×ˢ Finset.range 2) L' P G') :
    ∀ q, G q = G' q := by
  have o := hG.one
  have x := hG.x
  have y := hG.y
  have z := hG.z
  have o' := hG'.one
  have x' := hG'.x
  have y' := hG'.y
  have z' := hG'.z
  rw [sum_box] at o x y z o' x' y' z'
  dsimp only at x y z x' y' z'
  have sx : G (1, 0, 0) + G (1, 0, 1) + (G (1, 1, 0) + G (1, 1, 1)) = G' (1, 0, 0) + G' (1, 0, 1) + (G' (1, 1, 0) + G' (1, 1, 1)) := by
    apply mul_right_cancel₀ (sub_pos.2 hX).ne'
    linear_combination x - x' - X 0 * (o - o')
  have sy : G (0, 1, 0) + G (0, 1, 1) + (G (1, 1, 0) + G (1, 1, 1)) = G' (0, 1, 0) + G' (0, 1, 1) + (G' (1, 1, 0) + G' (1, 1, 1)) := by
    apply mul_right_cancel₀ (sub_pos.2 hY).ne'
    linear_combination y - y' - Y 0 * (o - o')
  have sz : G (0, 0, 1) + G (0, 1, 1) + (G (1, 0, 1) + G (1, 1, 1)) = G' (0, 0, 1) + G' (0, 1, 1) + (G' (1, 0, 1) + G' (1, 1, 1)) := by
    apply mul_right_cancel₀ (sub_pos.2 hZ).ne'
    linear_combination z - z' - Z 0 * (o - o')
  have t := tet_zeros h hG.supp
  have t' := tet_zeros h' hG'.supp
  have n := hG.nonneg
  have n' := hG'.nonneg
  have key : ∀ a b c, a < 2 → b < 2 → c < 2 → G (a, b, c) = G' (a, b, c) := by
    have a0 := n (0, 0, 0)
    have a1 := n (0, 0, 1)
    have a2 := n (0, 1, 0)
    have a3 := n (0, 1, 1)
    have a4 := n (1, 0, 0)
    have a5 := n (1, 0, 1)
    have a6 := n (1, 1, 0)
    have a7 := n (1, 1, 1)
    have b0 := n' (0, 0, 0)
    have b1 := n' (0, 0, 1)
    have b2 := n' (0, 1, 0)
    have b3 := n' (0, 1, 1)
    have b4 := n' (1, 0, 0)
    have b5 := n' (1, 0, 1)
    have b6 := n' (1, 1, 0)
    have b7 := n' (1, 1, 1)
    clear x y z x' y' z' h h' hG hG' n n'
    have all := five_weights o o' sx sy sz t t' a0 a1 a2 a3 a4 a5 a6 a7 b0 b1 b2 b3 b4 b5 b6 b7
    intro a b c ha hb hc
    obtain ⟨⟨e0, e1, e2, e3⟩, e4, e5, e6, e7⟩ := all
    match a, b, c, ha, hb, hc with
    | 0, 0, 0, _, _, _ => exact e0
    | 0, 0, 1, _, _, _ => exact e1
    | 0, 1, 0, _, _, _ => exact e2
    | 0, 1, 1, _, _, _ => exact e3
    | 1, 0, 0, _, _, _ => exact e4
    | 1, 0, 1, _, _, _ => exact e5
    | 1, 1, 0, _, _, _ => exact e6
    | 1, 1, 1, _, _, _ => exact e7
  rintro ⟨a, b, c⟩
  by_cases hin : a < 2 ∧ b < 2 ∧ c < 2
  · exact key a b c hin.1 hin.2.1 hin.2.2
  · have out : ∀ {L : List (Nat × Nat × Nat)}, L ∈ latTets (0, 0, 0) → (a, b, c) ∉ L := by
      intro L hL hm
      have := (latTets_inCell hL).2 _ hm
      simp only at this
      omega
    rw [hG.supp _ (out h), hG'.supp _ (out h')]

/-- Exactly when the tetrahedra of the hexahedra of a grid fit together. -/
theorem tets_fit_iff {ax ay az : Axis K} (hx : ax.N = 2) (hy : ay.N = 2) (hz : az.N = 2) (ix : ax.Inc) (iy : ay.Inc) (iz : az.Inc)
    (hn : 1 ≤ ax.n ∧ 1 ≤ ay.n ∧ 1 ≤ az.n) {T : List (List Int)}
    (h : transformTopology (addStart 0 (gridTopo [ax, ay, az])) [pathH8] pathH8.length 0 = some T) {R : Topo} (hR : toTetrahedra .H8 (asTopo T) = some R) :
    FaceToFace (pt3 (gridCoords [ax, ay, az])) R ↔ ax.n = 1 ∧ ay.n = 1 ∧ az.n = 1 := by
  have hRe := tetsH8 hx hy hz h hR
  have hpt : ∀ q, InLat ax.n ay.n az.n q → pt3 (gridCoords [ax, ay, az]) (latNo ay.n az.n q) = ⟨ax.b q.1, ay.b q.2.1, az.b q.2.2⟩ :=
    fun q hq => pt3_lat hx hy hz hq
  have row : ∀ {p L}, p.1 < ax.n ∧ p.2.1 < ay.n ∧ p.2.2 < az.n → L ∈ latTets p → L.map (latNo ay.n az.n) ∈ R := by
    intro p L hp hL
    rw [hRe]
    exact List.mem_map_of_mem (List.mem_flatMap.2 ⟨p, mem_latCells.2 hp, hL⟩)
  have inl : ∀ {p L}, p.1 < ax.n ∧ p.2.1 < ay.n ∧ p.2.2 < az.n → L ∈ latTets p → ∀ q ∈ L, InLat ax.n ay.n az.n q := by
    intro p L hp hL q hq
    have := (latTets_inCell hL).2 q hq
    simp only [InLat]
    omega
  have lx : ax.b 0 < ax.b 1 := ix 0 (by omega)
  have ly : ay.b 0 < ay.b 1 := iy 0 (by omega)
  have lz : az.b 0 < az.b 1 := iz 0 (by omega)
  constructor
  · intro hf
    refine ⟨?_, ?_, ?_⟩
    · by_contra hne
      have r1 : (0, 0, 0).1 < ax.n ∧ (0, 0, 0).2.1 < ay.n ∧ (0, 0, 0).2.2 < az.n := by simp only; omega
      have r2 : (1, 0, 0).1 < ax.n ∧ (1, 0, 0).2.1 < ay.n ∧ (1, 0, 0).2.2 < az.n := by simp only; omega
      have c := crossing hf (S := InLat ax.n ay.n az.n) (fun p q hp hq e => latNo_inj hp hq e)
        (inl r1 (L := [(1, 0, 0), (1, 1, 0), (0, 0, 0), (1, 0, 1)]) (by decide))
        (inl r2 (L := [(1, 1, 0), (1, 0, 0), (2, 1, 0), (1, 1, 1)]) (by decide)) (row r1 (by decide)) (row r2 (by decide))
        (a := (1, 1, 0)) (b := (1, 0, 1)) (c := (1, 0, 0)) (d := (1, 1, 1)) (by decide) (by decide) (by decide) (by decide)
        (by
          rw [hpt _ (by simp only [InLat]; omega), hpt _ (by simp only [InLat]; omega), hpt _ (by simp only [InLat]; omega),
            hpt _ (by simp only [InLat]; omega)]
          ext <;> simp [mid]; ring) ⟨0, 0, -1⟩ (az.b 0) (by
          intro q hq hq'
          rw [hpt q (inl r1 (L := [(1, 0, 0), (1, 1, 0), (0, 0, 0), (1, 0, 1)]) (by decide) q hq)]
          simp only [List.mem_cons, List.not_mem_nil, or_false] at hq hq'
          have : q.2.2 = 0 := by
            rcases hq with rfl | rfl | rfl | rfl <;> simp at hq' ⊢
          simp [dot, this])
      rw [hpt _ (by simp only [InLat]; omega), hpt _ (by simp only [InLat]; omega)] at c
      simp [dot, mid] at c
      linarith
    · by_contra hne
      have r1 : (0, 0, 0).1 < ax.n ∧ (0, 0, 0).2.1 < ay.n ∧ (0, 0, 0).2.2 < az.n := by simp only; omega
      have r2 : (0, 1, 0).1 < ax.n ∧ (0, 1, 0).2.1 < ay.n ∧ (0, 1, 0).2.2 < az.n := by simp only; omega
      have c := crossing hf (S := InLat ax.n ay.n az.n) (fun p q hp hq e => latNo_inj hp hq e)
        (inl r1 (L := [(0, 1, 0), (0, 0, 0), (1, 1, 0), (0, 1, 1)]) (by decide))
        (inl r2 (L := [(1, 1, 0), (1, 2, 0), (0, 1, 0), (1, 1, 1)]) (by decide)) (row r1 (by decide)) (row r2 (by decide))
        (a := (1, 1, 0)) (b := (0, 1, 1)) (c := (0, 1, 0)) (d := (1, 1, 1)) (by decide) (by decide) (by decide) (by decide)
        (by
          rw [hpt _ (by simp only [InLat]; omega), hpt _ (by simp only [InLat]; omega), hpt _ (by simp only [InLat]; omega),
            hpt _ (by simp only [InLat]; omega)]
          ext <;> simp [mid]; ring) ⟨0, 0, -1⟩ (az.b 0) (by
          intro q hq hq'
          rw [hpt q (inl r1 (L := [(0, 1, 0), (0, 0, 0), (1, 1, 0), (0, 1, 1)]) (by decide) q hq)]
          simp only [List.mem_cons, List.not_mem_nil, or_false] at hq hq'
          have : q.2.2 = 0 := by
            rcases hq with rfl | rfl | rfl | rfl <;> simp at hq' ⊢
          simp [dot, this])
      rw [hpt _ (by simp only [InLat]; omega), hpt _ (by simp only [InLat]; omega)] at c
      simp [dot, mid] at c
      linarith
    · by_contra hne
      have r1 : (0, 0, 0).1 < ax.n ∧ (0, 0, 0).2.1 < ay.n ∧ (0, 0, 0).2.2 < az.n := by simp only; omega
      have r2 : (0, 0, 1).1 < ax.n ∧ (0, 0, 1).2.1 < ay.n ∧ (0, 0, 1).2.2 < az.n := by simp only; omega
      have c := crossing hf (S := InLat ax.n ay.n az.n) (fun p q hp hq e => latNo_inj hp hq e)
        (inl r1 (L := [(1, 0, 1), (0, 0, 1), (0, 1, 1), (0, 0, 0)]) (by decide))
        (inl r2 (L := [(1, 0, 1), (1, 1, 1), (0, 0, 1), (1, 0, 2)]) (by decide)) (row r1 (by decide)) (row r2 (by decide))
        (a := (1, 0, 1)) (b := (0, 1, 1)) (c := (1, 1, 1)) (d := (0, 0, 1)) (by decide) (by decide) (by decide) (by decide)
        (by
          rw [hpt _ (by simp only [InLat]; omega), hpt _ (by simp only [InLat]; omega), hpt _ (by simp only [InLat]; omega),
            hpt _ (by simp only [InLat]; omega)]
          ext <;> simp [mid]; ring) ⟨0, -1, 0⟩ (ay.b 0) (by
          intro q hq hq'
          rw [hpt q (inl r1 (L := [(1, 0, 1), (0, 0, 1), (0, 1, 1), (0, 0, 0)]) (by decide) q hq)]
          simp only [List.mem_cons, List.not_mem_nil, or_false] at hq hq'
          have : q.2.1 = 0 := by
            rcases hq with rfl | rfl | rfl | rfl <;> simp at hq' ⊢
          simp [dot, this])
      rw [hpt _ (by simp only [InLat]; omega), hpt _ (by simp only [InLat]; omega)] at c
      simp [dot, mid] at c
      linarith
  · rintro ⟨n1, n2, n3⟩
    intro r hr r' hr' P hP hP'
    have cell : ∀ {r}, r ∈ R → ∃ L ∈ latTets (0, 0, 0), r = L.map (latNo ay.n az.n) := by
      intro r hr
      rw [hRe] at hr
      obtain ⟨L, hL, rfl⟩ := List.mem_map.1 hr
      obtain ⟨p, hp, hL⟩ := List.mem_flatMap.1 hL
      have := mem_latCells.1 hp
      have e : p = (0, 0, 0) := Prod.ext (by dsimp only; omega) (Prod.ext (by dsimp only; omega) (by dsimp only; omega))
      exact ⟨L, e ▸ hL, rfl⟩
    obtain ⟨L, hL, rfl⟩ := cell hr
    obtain ⟨L', hL', rfl⟩ := cell hr'
    have r1 : (0, 0, 0).1 < ax.n ∧ (0, 0, 0).2.1 < ay.n ∧ (0, 0, 0).2.2 < az.n := by simp only; omega
    have toPos : ∀ {L}, L ∈ latTets (0, 0, 0) → (L.map (latNo ay.n az.n)).map (pt3 (gridCoords [ax, ay, az])) =
        L.map fun q => (⟨ax.b q.1, ay.b q.2.1, az.b q.2.2⟩ : V3 K) := by
      intro L hL
      rw [List.map_map]
      exact List.map_congr_left fun q hq => hpt q (inl r1 hL q hq)
    have inB : ∀ {L}, L ∈ latTets (0, 0, 0) → ∀ q ∈ L, q ∈ Finset.range 2 ×ˢ Finset.range 2 ×ˢ Finset.range 2 := by
      intro L hL q hq
      have := (latTets_inCell hL).2 q hq
      simp only [Finset.mem_product, Finset.mem_range]; omega
    rw [toPos hL] at hP
    rw [toPos hL'] at hP'
    obtain ⟨G, hG⟩ := weights_of_hull (latTets_inCell hL).1 (inB hL) hP
    obtain ⟨G', hG'⟩ := weights_of_hull (latTets_inCell hL').1 (inB hL') hP'
    have e := tets_unique lx ly lz hL hL' hG hG'
    have hW : HullWeights (fun q : Nat × Nat × Nat => (⟨ax.b q.1, ay.b q.2.1, az.b q.2.2⟩ : V3 K))
        (Finset.range 2 ×ˢ Finset.range 2 ×ˢ Finset.range 2) (L.filter (· ∈ L')) P G := by
      refine ⟨hG.nonneg, ?_, hG.one, hG.x, hG.y, hG.z⟩
      intro q hq
      by_cases h1 : q ∈ L
      · have h2 : q ∉ L' := fun h2 => hq (List.mem_filter.2 ⟨h1, by simpa using h2⟩)
        rw [e]; exact hG'.supp q h2
      · exact hG.supp q h1
    refine hull_mono ?_ (hull_of_weights ((latTets_inCell hL).1.filter _) (fun q hq => inB hL q (List.mem_filter.1 hq).1) hW)
    intro x hx
    obtain ⟨q, hq, rfl⟩ := List.mem_map.1 hx
    obtain ⟨m1, m2⟩ := List.mem_filter.1 hq
    have m2 : q ∈ L' := by simpa using m2
    exact List.mem_map.2 ⟨latNo ay.n az.n q, List.mem_filter.2 ⟨List.mem_map_of_mem m1, by simpa using List.mem_map_of_mem (f := latNo ay.n az.n) m2⟩,
      hpt q (inl r1 hL q m1)⟩

/-- **C129** exactly when the tetrahedra of the hexahedra of `gridH8` fit together: if there is one hexahedron only. -/
theorem C129_tets_exact {lX lY lZ : K} (hX : 0 < lX) (hY : 0 < lY) (hZ : 0 < lZ) {nx ny nz : Nat} (s0 s1 s2 : K) (h : 1 ≤ nx ∧ 1 ≤ ny ∧ 1 ≤ nz) :
    ∃ C T R, gridH8 (args3 lX lY lZ nx ny nz s0 s1 s2 0) = some (C, T) ∧ toTetrahedra .H8 (asTopo T) = some R ∧
      (FaceToFace (pt3 C) R ↔ nx = 1 ∧ ny = 1 ∧ nz = 1) := by
  obtain ⟨T, h1, _⟩ := vtk3_closed 2 (by omega) tabH8 (uniAxis lX nx 2 s0) (uniAxis lY ny 2 s1) (uniAxis lZ nz 2 s2) rfl rfl rfl 0
  have e := gridNamed_uni3 2 (by omega) lX lY lZ s0 s1 s2 h h1
  obtain ⟨_, T', R, pts, g1, g2, _⟩ := C102_tets hX hY hZ s0 s1 s2 h
  rw [show gridH8 (args3 lX lY lZ nx ny nz s0 s1 s2 0) = _ from e, Option.some.injEq, Prod.mk.injEq] at g1
  obtain ⟨rfl, rfl⟩ := g1
  exact ⟨_, T, R, e, g2, tets_fit_iff rfl rfl rfl (uniAxis_inc hX h.1) (uniAxis_inc hY h.2.1) (uniAxis_inc hZ h.2.2) h h1 g2⟩

/-- **C129** the same with bins in increasing order. -/
theorem C129_tets_bins_exact {bx bY bz : List K} (hx : bx.Pairwise (· < ·)) (hy : bY.Pairwise (· < ·)) (hz : bz.Pairwise (· < ·)) (s0 s1 s2 : K)
    (h : 2 ≤ bx.length ∧ 2 ≤ bY.length ∧ 2 ≤ bz.length) :
    ∃ C T R, gridH8 (argsB3 bx bY bz s0 s1 s2 0) = some (C, T) ∧ toTetrahedra .H8 (asTopo T) = some R ∧
      (FaceToFace (pt3 C) R ↔ bx.length = 2 ∧ bY.length = 2 ∧ bz.length = 2) := by
  obtain ⟨T, h1, _⟩ := vtk3_closed 2 (by omega) tabH8 (binAxis bx 2 s0) (binAxis bY 2 s1) (binAxis bz 2 s2) rfl rfl rfl 0
  have e := gridNamed_bins3 2 (by omega) s0 s1 s2 h h1
  obtain ⟨_, T', R, pts, g1, g2, _⟩ := C102_tets_bins hx hy hz s0 s1 s2 h
  rw [show gridH8 (argsB3 bx bY bz s0 s1 s2 0) = _ from e, Option.some.injEq, Prod.mk.injEq] at g1
  obtain ⟨rfl, rfl⟩ := g1
  refine ⟨_, T, R, e, g2, (tets_fit_iff rfl rfl rfl (binAxis_inc hx) (binAxis_inc hy) (binAxis_inc hz) ?_ h1 g2).trans ?_⟩
  · simp only [binAxis]; omega
  · simp only [binAxis]; omega

/-! ## tetrahedra of extruded grids -/

theorem latTris_order {nx ny : Nat} (hn : 1 ≤ nx ∧ 1 ≤ ny) :
    SameOrder (triplesOf (((latCells2 nx ny).flatMap latTris).map (List.map (latNo2 ny)))) ↔ ny = 1 := by
  constructor
  · intro h
    by_contra hne
    have mem : ∀ {p L}, p.1 < nx ∧ p.2 < ny → L ∈ latTris p →
        (fun r : List Nat => (r.getD 0 0, r.getD 1 0, r.getD 2 0)) (L.map (latNo2 ny)) ∈ triplesOf (((latCells2 nx ny).flatMap latTris).map (List.map (latNo2 ny))) :=
      fun hp hL => List.mem_map_of_mem (List.mem_map_of_mem (List.mem_flatMap.2 ⟨_, mem_latCells2.2 hp, hL⟩))
    have m1 := mem (p := (0, 0)) (L := [(0, 0), (1, 1), (0, 1)]) (by simp only; omega) (by decide)
    have m2 := mem (p := (0, 1)) (L := [(0, 1), (1, 1), (1, 2)]) (by simp only; omega) (by decide)
    exact h _ m1 _ m2 (latNo2 ny (1, 1)) (latNo2 ny (0, 1)) (by simp [Before]) (by simp [Before])
  · rintro rfl t ht t' ht' p q
    obtain ⟨c, hc, a⟩ := triplesOf_latTris ht
    obtain ⟨c', hc', a'⟩ := triplesOf_latTris ht'
    have b := (mem_latCells2.1 hc).2
    have b' := (mem_latCells2.1 hc').2
    simp only [latNo2] at a a' b b'
    rcases a with rfl | rfl <;> rcases a' with rfl | rfl <;> simp only [Before] <;> omega

/-- **C129** exactly when the tetrahedra of an extruded grid fit together: if there is one row of cells. -/
theorem C129_extruded_tets_exact {lX lY h : K} (hX : 0 < lX) (hY : 0 < lY) (hh : 0 < h) {nx ny zres : Nat} (s0 s1 : K)
    (hn : 1 ≤ nx ∧ 1 ≤ ny ∧ 1 ≤ zres) :
    ∃ C T R, gridQ4 (args2 lX lY nx ny s0 s1 0) = some (C, T) ∧ toTriangles .Q4 (asTopo T) = some R ∧
      ∀ C' T', extrudeT3TET4 (pairsOf C) (triplesOf R) h zres = (C', T') → (FaceToFace (pt3 C') T' ↔ ny = 1) := by
  obtain ⟨T, h1, _⟩ := vtk2_closed 2 (by omega) tabQ4 (uniAxis lX nx 2 s0) (uniAxis lY ny 2 s1) rfl rfl 0
  have e := gridNamed_uni2 2 (by omega) lX lY s0 s1 (show 1 ≤ nx ∧ 1 ≤ ny by omega) h1
  obtain ⟨_, T', R, pts, g1, g2, _⟩ := C102_tris hX hY s0 s1 (show 1 ≤ nx ∧ 1 ≤ ny by omega)
  rw [show gridQ4 (args2 lX lY nx ny s0 s1 0) = _ from e, Option.some.injEq, Prod.mk.injEq] at g1
  obtain ⟨rfl, rfl⟩ := g1
  have hR := trisQ4 (ax := uniAxis lX nx 2 s0) (ay := uniAxis lY ny 2 s1) rfl rfl h1 g2
  have hp : PlaneFit (pairsOf (gridCoords [uniAxis lX nx 2 s0, uniAxis lY ny 2 s1])) (triplesOf R) := by
    rw [hR]
    exact plane_latTris rfl rfl (uniAxis_inc hX hn.1) (uniAxis_inc hY hn.2.1) fun p hp => mem_latCells2.1 hp
  refine ⟨_, T, R, e, g2, fun C' T' hr => (C128_tets_exact _ _ h zres hp hh hn.2.2 C' T' hr).trans ?_⟩
  rw [hR]
  exact latTris_order ⟨hn.1, hn.2.1⟩

/-- **C129** the same with bins in increasing order. -/
theorem C129_extruded_tets_bins_exact {bx bY : List K} (hx : bx.Pairwise (· < ·)) (hy : bY.Pairwise (· < ·)) {h : K} (hh : 0 < h) {zres : Nat} (s0 s1 : K)
    (hn : 2 ≤ bx.length ∧ 2 ≤ bY.length ∧ 1 ≤ zres) :
    ∃ C T R, gridQ4 (argsB2 bx bY s0 s1 0) = some (C, T) ∧ toTriangles .Q4 (asTopo T) = some R ∧
      ∀ C' T', extrudeT3TET4 (pairsOf C) (triplesOf R) h zres = (C', T') → (FaceToFace (pt3 C') T' ↔ bY.length = 2) := by
  obtain ⟨T, h1, _⟩ := vtk2_closed 2 (by omega) tabQ4 (binAxis bx 2 s0) (binAxis bY 2 s1) rfl rfl 0
  have e := gridNamed_bins2 2 (by omega) s0 s1 (show 2 ≤ bx.length ∧ 2 ≤ bY.length by omega) h1
  obtain ⟨_, T', R, pts, g1, g2, _⟩ := C102_tris_bins hx hy s0 s1 (show 2 ≤ bx.length ∧ 2 ≤ bY.length by omega)
  rw [show gridQ4 (argsB2 bx bY s0 s1 0) = _ from e, Option.some.injEq, Prod.mk.injEq] at g1
  obtain ⟨rfl, rfl⟩ := g1
  have hR := trisQ4 (ax := binAxis bx 2 s0) (ay := binAxis bY 2 s1) rfl rfl h1 g2
  have hp : PlaneFit (pairsOf (gridCoords [binAxis bx 2 s0, binAxis bY 2 s1])) (triplesOf R) := by
    rw [hR]
    exact plane_latTris rfl rfl (binAxis_inc hx) (binAxis_inc hy) fun p hp => mem_latCells2.1 hp
  refine ⟨_, T, R, e, g2, fun C' T' hr => (C128_tets_exact _ _ h zres hp hh hn.2.2 C' T' hr).trans ?_⟩
  rw [hR]
  refine (latTris_order ?_).trans ?_
  · simp only [binAxis]; omega
  · simp only [binAxis]; omega

end

end PM
