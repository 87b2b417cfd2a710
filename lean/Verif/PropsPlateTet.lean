import Verif.PropsPlate
import Verif.PropsConform

/-!
# Property C62: the ribbed plate of tetrahedra
-/

namespace PM
open V3

section
set_option linter.unusedSectionVars false
variable {K : Type} [Field K] [LinearOrder K] [IsStrictOrderedRing K]

/-- The cells are tetrahedra of positive volume (with their mid-side nodes, if any) that cover exactly the set `S` and do
not overlap; no two points coincide and all are used. -/
structure TetMesh (lc : List (V3 Int)) (C : List (List K)) (T : Topo) (S : V3 K → Prop) : Prop where
  tet : ∀ r ∈ T, ∃ A : Aff K, 0 < A.det ∧ RowAff lc C r A
  cover : ∀ p, S p ↔ ∃ r ∈ T, ∃ A : Aff K, RowAff lc C r A ∧ Hull (cellPts A lc [0, 1, 2, 3]) p
  disjoint : ∀ (i j : Nat) (r s : List Nat) (A B : Aff K) (p : V3 K), T[i]? = some r → T[j]? = some s → i ≠ j →
    RowAff lc C r A → RowAff lc C s B → ¬ (OpenHull (cellPts A lc [0, 1, 2, 3]) p ∧ OpenHull (cellPts B lc [0, 1, 2, 3]) p)
  distinct : C.Nodup
  used : ∀ n, UsesNode T n ↔ n < C.length

/-- The positions of the nodes of a row are determined. -/
theorem RowAff.same {lc : List (V3 Int)} {C : List (List K)} {r : List Nat} {A B : Aff K} (h : RowAff lc C r A)
    (h' : RowAff lc C r B) {n : Nat} (hn : n < lc.length) : A.app (half (lc.getD n 0)) = B.app (half (lc.getD n 0)) := by
  obtain ⟨x, e1, P, rfl, e2⟩ := h.2 n hn
  obtain ⟨y, f1, Q, rfl, f2⟩ := h'.2 n hn
  rw [e1] at f1
  cases Option.some.inj f1
  rw [e2] at f2
  simp only [Option.some.injEq, List.cons.injEq, and_true] at f2
  ext
  · exact f2.1
  · exact f2.2.1
  · exact f2.2.2

theorem RowAff.pts_eq {lc : List (V3 Int)} {C : List (List K)} {r : List Nat} {A B : Aff K} (h : RowAff lc C r A)
    (h' : RowAff lc C r B) {ids : List Nat} (hi : ∀ n ∈ ids, n < lc.length) : cellPts A lc ids = cellPts B lc ids := by
  apply List.map_congr_left
  intro n hn
  exact h.same h' (hi n hn)

/-! ## boxes -/

theorem boxAff_det (x0 x1 y0 y1 z0 z1 : K) :
    (boxAff x0 x1 y0 y1 z0 z1).det = (x1 - x0) * (y1 - y0) * (z1 - z0) / 8 := by
  simp [boxAff, Aff.det, det3]; ring

/-- Every point of a box is the image of a point of the master cell. -/
theorem inB_iff {lo hi p : V3 K} (hx : lo.x < hi.x) (hy : lo.y < hi.y) (hz : lo.z < hi.z) {ξ : V3 K}
    (hp : p = (boxAff lo.x hi.x lo.y hi.y lo.z hi.z).app ξ) :
    InB lo hi p ↔ (-1 ≤ ξ.x ∧ ξ.x ≤ 1) ∧ (-1 ≤ ξ.y ∧ ξ.y ≤ 1) ∧ (-1 ≤ ξ.z ∧ ξ.z ≤ 1) := by
  subst hp
  have key : ∀ a b c : K, a < b → ((a ≤ (a + b) / 2 + c * ((b - a) / 2) ∧ (a + b) / 2 + c * ((b - a) / 2) ≤ b) ↔
      (-1 ≤ c ∧ c ≤ 1)) := by
    intro a b c hab
    have hd : 0 < (b - a) / 2 := by linarith
    constructor
    · rintro ⟨h1, h2⟩
      constructor
      · by_contra hc
        have := mul_lt_mul_of_pos_right (not_le.1 hc) hd
        linarith
      · by_contra hc
        have := mul_lt_mul_of_pos_right (not_le.1 hc) hd
        linarith
    · rintro ⟨h1, h2⟩
      have e1 := mul_le_mul_of_nonneg_right h1 hd.le
      have e2 := mul_le_mul_of_nonneg_right h2 hd.le
      constructor <;> linarith
  simp only [InB, boxAff, Aff.app, add_x, add_y, add_z, smul_x, smul_y, smul_z, mul_zero, add_zero, zero_add]
  rw [key _ _ _ hx, key _ _ _ hy, key _ _ _ hz]

theorem insideB_iff {lo hi p : V3 K} (hx : lo.x < hi.x) (hy : lo.y < hi.y) (hz : lo.z < hi.z) {ξ : V3 K}
    (hp : p = (boxAff lo.x hi.x lo.y hi.y lo.z hi.z).app ξ) :
    InsideB lo hi p ↔ (-1 < ξ.x ∧ ξ.x < 1) ∧ (-1 < ξ.y ∧ ξ.y < 1) ∧ (-1 < ξ.z ∧ ξ.z < 1) := by
  subst hp
  have key : ∀ a b c : K, a < b → ((a < (a + b) / 2 + c * ((b - a) / 2) ∧ (a + b) / 2 + c * ((b - a) / 2) < b) ↔
      (-1 < c ∧ c < 1)) := by
    intro a b c hab
    have hd : 0 < (b - a) / 2 := by linarith
    constructor
    · rintro ⟨h1, h2⟩
      constructor
      · by_contra hc
        have := mul_le_mul_of_nonneg_right (not_lt.1 hc) hd.le
        linarith
      · by_contra hc
        have := mul_le_mul_of_nonneg_right (not_lt.1 hc) hd.le
        linarith
    · rintro ⟨h1, h2⟩
      have e1 := mul_lt_mul_of_pos_right h1 hd
      have e2 := mul_lt_mul_of_pos_right h2 hd
      constructor <;> linarith
  simp only [InsideB, boxAff, Aff.app, add_x, add_y, add_z, smul_x, smul_y, smul_z, mul_zero, add_zero, zero_add]
  rw [key _ _ _ hx, key _ _ _ hy, key _ _ _ hz]

theorem box_preimage {lo hi : V3 K} (hx : lo.x < hi.x) (hy : lo.y < hi.y) (hz : lo.z < hi.z) (p : V3 K) :
    ∃ ξ, p = (boxAff lo.x hi.x lo.y hi.y lo.z hi.z).app ξ := by
  have key : ∀ a b x : K, a < b → x = (a + b) / 2 + (x - (a + b) / 2) / ((b - a) / 2) * ((b - a) / 2) := by
    intro a b x hab
    have hd : (b - a) / 2 ≠ 0 := by
      have : 0 < (b - a) / 2 := by linarith
      exact this.ne'
    rw [div_mul_cancel₀ _ hd]; ring
  refine ⟨⟨(p.x - (lo.x + hi.x) / 2) / ((hi.x - lo.x) / 2), (p.y - (lo.y + hi.y) / 2) / ((hi.y - lo.y) / 2),
    (p.z - (lo.z + hi.z) / 2) / ((hi.z - lo.z) / 2)⟩, ?_⟩
  ext
  · simp only [boxAff, Aff.app, add_x, smul_x, mul_zero, add_zero]; exact key _ _ _ hx
  · simp only [boxAff, Aff.app, add_y, smul_y, mul_zero, add_zero, zero_add]; exact key _ _ _ hy
  · simp only [boxAff, Aff.app, add_z, smul_z, mul_zero, add_zero, zero_add]; exact key _ _ _ hz

/-- The master hexahedron is the hull of its corners. -/
theorem hull_master {ξ : V3 K} (h : (-1 ≤ ξ.x ∧ ξ.x ≤ 1) ∧ (-1 ≤ ξ.y ∧ ξ.y ≤ 1) ∧ (-1 ≤ ξ.z ∧ ξ.z ≤ 1)) :
    Hull (masterPts K lcH8 [0, 1, 2, 3, 4, 5, 6, 7]) ξ := by
  obtain ⟨⟨x1, x2⟩, ⟨y1, y2⟩, ⟨z1, z2⟩⟩ := h
  have e : masterPts K lcH8 [0, 1, 2, 3, 4, 5, 6, 7] =
      masterPts K lcH8 [0, 1, 2, 3] ++ (masterPts K lcH8 [0, 1, 2, 3]).map (· + ⟨0, 0, 2⟩) := by
    simp [masterPts, half, lcH8] <;> (constructorm* _ ∧ _) <;> (ext <;> simp <;> norm_num)
  rw [e]
  refine hull_sweep (l := (ξ.z + 1) / 2) (by linarith) (by linarith) ?_
  refine hull_quad _ _ _ _ ((ξ.x + 1) / 2) ((ξ.y + 1) / 2) (by linarith) (by linarith) (by linarith) (by linarith) _ ?_ ?_ ?_
  · simp [half, lcH8]; ring
  · simp [half, lcH8]; ring
  · simp [half, lcH8]; ring

/-! ## the split -/

/-- What is needed about the split of a hexahedron into tetrahedra. -/
structure TetSplit (K : Type) [Field K] [LinearOrder K] [IsStrictOrderedRing K] (lch lct : List (V3 Int))
    (path : List (List Nat)) : Prop where
  hex : HexMaster lch
  corners : masterPts K lch [0, 1, 2, 3, 4, 5, 6, 7] = masterPts K lcH8 [0, 1, 2, 3, 4, 5, 6, 7]
  cols : ∀ p ∈ path, p.length = lct.length ∧ ∀ q ∈ p, q < lch.length
  four : 4 ≤ lct.length
  tiles : Tiles K lch [0, 1, 2, 3, 4, 5, 6, 7] path 4
  pos : ∀ A : Aff K, 0 < A.det → ∀ t ∈ path, PosPiece (fun i => A.app (half (lch.getD i 0))) t lct
  inside : ∀ t ∈ path, ∀ f ∈ [((⟨1, 0, 0⟩ : V3 Int), (-2 : Int)), (⟨-1, 0, 0⟩, -2), (⟨0, 1, 0⟩, -2), (⟨0, -1, 0⟩, -2),
    (⟨0, 0, 1⟩, -2), (⟨0, 0, -1⟩, -2)], (∀ i ∈ t.take 4, evalD f (lch.getD i 0) ≤ 0) ∧
      ∃ i ∈ t.take 4, evalD f (lch.getD i 0) < 0

theorem split_H8_TET4 : TetSplit K lcH8 lcTET4 pathH8TET4 :=
  ⟨hexH8, rfl, by decide, by decide, C14_tiles_H8_to_TET4 K, fun A hA => (C14_orientation_3d A hA).1, by decide +kernel⟩

theorem split_H27_TET10 : TetSplit K lcH27 lcTET10 pathH27TET10 :=
  ⟨hexH27, rfl, by decide, by decide, C14_tiles_H27_to_TET10 K, fun A hA => (C14_orientation_3d A hA).2.1, by decide +kernel⟩

section
variable {lch lct : List (V3 Int)} {path : List (List Nat)} (hs : TetSplit K lch lct path)
include hs

/-- The hull of a piece in the master cell. -/
theorem TetSplit.hull_in {t : List Nat} (ht : t ∈ path) {ξ : V3 K} (h : Hull (masterPts K lch (t.take 4)) ξ) :
    (-1 ≤ ξ.x ∧ ξ.x ≤ 1) ∧ (-1 ≤ ξ.y ∧ ξ.y ≤ 1) ∧ (-1 ≤ ξ.z ∧ ξ.z ≤ 1) := by
  have key : ∀ f : V3 Int × Int, (∀ i ∈ t.take 4, evalD (⟨-f.1.x, -f.1.y, -f.1.z⟩, -f.2) (lch.getD i 0) ≤ 0) →
      0 ≤ (2 * f.1.x : K) * ξ.x + 2 * f.1.y * ξ.y + 2 * f.1.z * ξ.z + f.2 := by
    intro f hf
    apply hull_bound f _ h
    simp only [List.all_eq_true, decide_eq_true_eq]
    intro i hi
    have := hf i hi
    simp only [evalD] at this ⊢
    linarith
  have hf := hs.inside t ht
  have k1 := key (⟨-1, 0, 0⟩, 2) (hf (⟨1, 0, 0⟩, -2) (by decide)).1
  have k2 := key (⟨1, 0, 0⟩, 2) (hf (⟨-1, 0, 0⟩, -2) (by decide)).1
  have k3 := key (⟨0, -1, 0⟩, 2) (hf (⟨0, 1, 0⟩, -2) (by decide)).1
  have k4 := key (⟨0, 1, 0⟩, 2) (hf (⟨0, -1, 0⟩, -2) (by decide)).1
  have k5 := key (⟨0, 0, -1⟩, 2) (hf (⟨0, 0, 1⟩, -2) (by decide)).1
  have k6 := key (⟨0, 0, 1⟩, 2) (hf (⟨0, 0, -1⟩, -2) (by decide)).1
  push_cast at k1 k2 k3 k4 k5 k6
  refine ⟨⟨?_, ?_⟩, ⟨?_, ?_⟩, ⟨?_, ?_⟩⟩ <;> linarith

theorem TetSplit.openHull_in {t : List Nat} (ht : t ∈ path) {ξ : V3 K} (h : OpenHull (masterPts K lch (t.take 4)) ξ) :
    (-1 < ξ.x ∧ ξ.x < 1) ∧ (-1 < ξ.y ∧ ξ.y < 1) ∧ (-1 < ξ.z ∧ ξ.z < 1) := by
  have key : ∀ f : V3 Int × Int, (∀ i ∈ t.take 4, evalD f (lch.getD i 0) ≤ 0) → (∃ i ∈ t.take 4, evalD f (lch.getD i 0) < 0) →
      (2 * f.1.x : K) * ξ.x + 2 * f.1.y * ξ.y + 2 * f.1.z * ξ.z + f.2 < 0 := by
    intro f h1 ⟨k, hk, h2⟩
    have := evalF_neg_of_openHull (f := (⟨2 * f.1.x, 2 * f.1.y, 2 * f.1.z⟩, f.2)) h (by
      intro q hq
      obtain ⟨n, hn, rfl⟩ := List.mem_map.1 hq
      rw [evalF_half]; exact_mod_cast h1 n hn) ⟨_, List.mem_map.2 ⟨k, hk, rfl⟩, by rw [evalF_half]; exact_mod_cast h2⟩
    simpa [evalF] using this
  have hf := hs.inside t ht
  have q1 := hf (⟨1, 0, 0⟩, -2) (by decide)
  have q2 := hf (⟨-1, 0, 0⟩, -2) (by decide)
  have q3 := hf (⟨0, 1, 0⟩, -2) (by decide)
  have q4 := hf (⟨0, -1, 0⟩, -2) (by decide)
  have q5 := hf (⟨0, 0, 1⟩, -2) (by decide)
  have q6 := hf (⟨0, 0, -1⟩, -2) (by decide)
  have k1 := key _ q1.1 q1.2
  have k2 := key _ q2.1 q2.2
  have k3 := key _ q3.1 q3.2
  have k4 := key _ q4.1 q4.2
  have k5 := key _ q5.1 q5.2
  have k6 := key _ q6.1 q6.2
  push_cast at k1 k2 k3 k4 k5 k6
  refine ⟨⟨?_, ?_⟩, ⟨?_, ?_⟩, ⟨?_, ?_⟩⟩ <;> linarith

/-- The pieces of one cell. -/
theorem TetSplit.piece {C : List (List K)} {r s t : List Nat} {A : Aff K} (hA : 0 < A.det) (hr : RowAff lch C r A)
    (ht : t ∈ path) (hl : s.length = lct.length) (hn : ∀ (j q : Nat), t[j]? = some q → s[j]? = r[q]?) :
    ∃ B : Aff K, 0 < B.det ∧ RowAff lct C s B ∧ cellPts B lct [0, 1, 2, 3] = cellPts A lch (t.take 4) := by
  obtain ⟨B, h1, h2⟩ := hs.pos A hA t ht
  obtain ⟨c1, c2⟩ := hs.cols t ht
  refine ⟨B, h1, ⟨hl, fun n hlt => ?_⟩, ?_⟩
  · have hnt : n < t.length := by omega
    have e := hn n t[n] (List.getElem?_eq_getElem hnt)
    have hq := c2 t[n] (List.getElem_mem hnt)
    obtain ⟨node, e1, P, rfl, e2⟩ := hr.2 t[n] hq
    refine ⟨node, e.trans e1, _, ?_, e2⟩
    have e : t.getD n 0 = t[n] := by rw [List.getD_eq_getElem?_getD, List.getElem?_eq_getElem hnt]; rfl
    have := h2 n hnt
    simp only [e] at this
    exact this
  · have hf := hs.four
    have e4 : t.take 4 = [0, 1, 2, 3].map fun n => t.getD n 0 := by
      match t, c1 with
      | a :: b :: c :: d :: l, _ => simp
      | [a, b, c], h => simp at h; omega
      | [a, b], h => simp at h; omega
      | [a], h => simp at h; omega
      | [], h => simp at h; omega
    rw [e4, cellPts, cellPts, List.map_map]
    apply List.map_congr_left
    intro n hn
    have hn4 : n < 4 := by
      simp only [List.mem_cons, List.not_mem_nil, or_false] at hn; omega
    exact (h2 n (by omega)).symm

theorem TetSplit.mesh {C : List (List K)} {T : Topo} {S : V3 K → Prop} (h : PreMesh lch C T S) :
    ∃ T' c t, transformTopology T path lct.length 0 = some T' ∧ detach C T' none = some (c, t) ∧ TetMesh lct c t S := by
  have hrow : ∀ r ∈ T, r.length = lch.length := by
    intro r hr
    obtain ⟨lo, hi, -, -, -, hb⟩ := h.box r hr
    exact hb.1
  have hP : PathOK T path lct.length := pathOK_of hrow hs.cols
  obtain ⟨T', e1, e2, e3⟩ := C09_transform_topology T path lct.length 0 hP
  -- the pieces
  have down : ∀ (i k : Nat) (r t : List Nat), T[i]? = some r → path[k]? = some t → ∃ s, T'[i * path.length + k]? = some s ∧
      s.length = lct.length ∧ ∀ (j q : Nat), t[j]? = some q → s[j]? = r[q]? := by
    intro i k r t hr ht
    obtain ⟨s, h1, h2, h3⟩ := e3 i k (List.getElem?_eq_some_iff.1 hr).1 (List.getElem?_eq_some_iff.1 ht).1
    refine ⟨s, h1, h2, fun j q hq => ?_⟩
    rw [h3 j q (by rw [nodeAt, ht]; exact hq), nodeAt, hr]; rfl
  have up : ∀ (m : Nat) (s : List Nat), T'[m]? = some s → ∃ i k r t, m = i * path.length + k ∧ T[i]? = some r ∧
      path[k]? = some t ∧ s.length = lct.length ∧ ∀ (j q : Nat), t[j]? = some q → s[j]? = r[q]? := by
    intro m s hm
    have hlt : m < path.length * T.length := by rw [← e2]; exact (List.getElem?_eq_some_iff.1 hm).1
    have hp : 0 < path.length := Nat.pos_of_ne_zero (by rintro e; rw [e] at hlt; simp at hlt)
    have hi : m / path.length < T.length := Nat.div_lt_of_lt_mul hlt
    have hk := Nat.mod_lt m hp
    obtain ⟨s', h1, h2, h3⟩ := down (m / path.length) (m % path.length) _ _ (List.getElem?_eq_getElem hi)
      (List.getElem?_eq_getElem hk)
    rw [Nat.div_add_mod', hm] at h1
    cases Option.some.inj h1
    exact ⟨_, _, _, _, (Nat.div_add_mod' m path.length).symm, List.getElem?_eq_getElem hi, List.getElem?_eq_getElem hk, h2, h3⟩
  have box : ∀ (i : Nat) (r : List Nat), T[i]? = some r → ∃ lo hi, lo.x < hi.x ∧ lo.y < hi.y ∧ lo.z < hi.z ∧
      RowBox lch C r lo hi ∧ 0 < (boxAff lo.x hi.x lo.y hi.y lo.z hi.z).det := by
    intro i r hr
    obtain ⟨lo, hi, a, b, d, hb⟩ := h.box r (List.mem_of_getElem? hr)
    refine ⟨lo, hi, a, b, d, hb, ?_⟩
    rw [boxAff_det]
    have := mul_pos (mul_pos (sub_pos.2 a) (sub_pos.2 b)) (sub_pos.2 d)
    linarith
  have lc4 : ∀ n ∈ [0, 1, 2, 3], n < lct.length := by
    have := hs.four
    intro n hn; simp only [List.mem_cons, List.not_mem_nil, or_false] at hn; omega
  have huse : ∀ n, UsesNode T' n → n < C.length := by
    rintro n ⟨s, hs', hn⟩
    obtain ⟨m, hm⟩ := List.mem_iff_getElem?.1 hs'
    obtain ⟨i, k, r, t, -, hr, ht, hl, hj⟩ := up m s hm
    obtain ⟨lo, hi, -, -, -, hb, hA⟩ := box i r hr
    obtain ⟨B, -, hB, -⟩ := hs.piece hA hb (List.mem_of_getElem? ht) hl hj
    obtain ⟨j, hj', e⟩ := List.getElem_of_mem hn
    obtain ⟨node, f1, P, -, f2⟩ := hB.2 j (by rw [← hl]; exact hj')
    rw [List.getElem?_eq_getElem hj', e] at f1
    cases Option.some.inj f1
    exact (List.getElem?_eq_some_iff.1 f2).1
  obtain ⟨c, t', d1, d2, d3, d4⟩ := detach_same huse h.distinct
  refine ⟨T', c, t', e1, d1, ⟨?_, ?_, ?_, d3, d4⟩⟩
  · intro r hr
    obtain ⟨m, s, f1, f2, -⟩ := d2.get hr
    obtain ⟨i, k, r', t, -, hr', ht, hl, hj⟩ := up m s f2
    obtain ⟨lo, hi, -, -, -, hb, hA⟩ := box i r' hr'
    obtain ⟨B, h1, hB, -⟩ := hs.piece hA hb (List.mem_of_getElem? ht) hl hj
    exact ⟨B, h1, (d2.rowAff f2 f1).2 hB⟩
  · intro p
    rw [h.cover]
    constructor
    · rintro ⟨r, hr, lo, hi, hb, hp⟩
      obtain ⟨i, hi'⟩ := List.mem_iff_getElem?.1 hr
      obtain ⟨lo', hi2, a, b, d, hb', hA⟩ := box i r hi'
      obtain ⟨rfl, rfl⟩ := hb.unique hs.hex hb'
      obtain ⟨ξ, hξ⟩ := box_preimage a b d p
      have hin := (inB_iff a b d hξ).1 hp
      have hull : Hull (cellPts (boxAff lo'.x hi2.x lo'.y hi2.y lo'.z hi2.z) lch [0, 1, 2, 3, 4, 5, 6, 7]) p := by
        rw [cellPts_eq, hs.corners, hξ]
        exact hull_map_of _ (hull_master hin)
      obtain ⟨t, ht, hh⟩ := hs.tiles.cover _ hA.ne' p hull
      obtain ⟨k, hk⟩ := List.mem_iff_getElem?.1 ht
      obtain ⟨s, s1, s2, s3⟩ := down i k r t hi' hk
      obtain ⟨B, -, hB, hpts⟩ := hs.piece hA hb ht s2 s3
      have hlt : i * path.length + k < t'.length := by rw [d2.1]; exact (List.getElem?_eq_some_iff.1 s1).1
      refine ⟨t'[i * path.length + k], List.getElem_mem hlt, B, (d2.rowAff s1 (List.getElem?_eq_getElem hlt)).2 hB, ?_⟩
      rw [hpts]; exact hh
    · rintro ⟨r, hr, A, hA, hp⟩
      obtain ⟨m, s, f1, f2, -⟩ := d2.get hr
      have hA' := (d2.rowAff f2 f1).1 hA
      obtain ⟨i, k, r', t, -, hr', ht, hl, hj⟩ := up m s f2
      obtain ⟨lo, hi, a, b, d, hb, hdet⟩ := box i r' hr'
      obtain ⟨B, -, hB, hpts⟩ := hs.piece hdet hb (List.mem_of_getElem? ht) hl hj
      rw [hA'.pts_eq hB lc4, hpts, cellPts_eq] at hp
      obtain ⟨ξ, hξ, hh⟩ := exists_of_hull_map _ hp
      exact ⟨r', List.mem_of_getElem? hr', lo, hi, hb, (inB_iff a b d hξ).2 (hs.hull_in (List.mem_of_getElem? ht) hh)⟩
  · intro m m' r s A B p f1 f2 hne hA hB
    rintro ⟨o1, o2⟩
    have l1 : m < T'.length := by rw [← d2.1]; exact (List.getElem?_eq_some_iff.1 f1).1
    have l2 : m' < T'.length := by rw [← d2.1]; exact (List.getElem?_eq_some_iff.1 f2).1
    have g1 : T'[m]? = some T'[m] := List.getElem?_eq_getElem l1
    have g2 : T'[m']? = some T'[m'] := List.getElem?_eq_getElem l2
    have hA' := (d2.rowAff g1 f1).1 hA
    have hB' := (d2.rowAff g2 f2).1 hB
    obtain ⟨i, k, r1, t1, q1, hr1, ht1, hl1, hj1⟩ := up m _ g1
    obtain ⟨i', k', r2, t2, q2, hr2, ht2, hl2, hj2⟩ := up m' _ g2
    obtain ⟨lo, hi, a, b, d, hb, hdet⟩ := box i r1 hr1
    obtain ⟨lo', hi', a', b', d', hb', hdet'⟩ := box i' r2 hr2
    obtain ⟨X, -, hX, hpX⟩ := hs.piece hdet hb (List.mem_of_getElem? ht1) hl1 hj1
    obtain ⟨Y, -, hY, hpY⟩ := hs.piece hdet' hb' (List.mem_of_getElem? ht2) hl2 hj2
    rw [hA'.pts_eq hX lc4, hpX] at o1
    rw [hB'.pts_eq hY lc4, hpY] at o2
    by_cases hii : i = i'
    · subst hii
      rw [hr1] at hr2
      cases Option.some.inj hr2
      obtain ⟨rfl, rfl⟩ := hb.unique hs.hex hb'
      exact hs.tiles.disj _ hdet.ne' k k' t1 t2 ht1 ht2 (by rintro rfl; exact hne (q1.trans q2.symm)) p ⟨o1, o2⟩
    · rw [cellPts_eq] at o1 o2
      obtain ⟨ξ, hξ, hh⟩ := exists_of_openHull_map _ o1
      obtain ⟨η, hη, hh'⟩ := exists_of_openHull_map _ o2
      exact h.disjoint i i' r1 r2 lo hi lo' hi' p hr1 hr2 hii hb hb'
        ((insideB_iff a b d hξ).2 (hs.openHull_in (List.mem_of_getElem? ht1) hh))
        ((inB_iff a' b' d' hη).2 (hs.hull_in (List.mem_of_getElem? ht2) (Hull.of_open hh')))

end

variable [FloorRing K]

/-- The master tetrahedron of the given order. -/
def lcTet (order : Nat) : List (V3 Int) := if order = 1 then lcTET4 else lcTET10

/-- **C62** the tetrahedra of the ribbed plate: positive volume, no overlaps, and together exactly the plate and the ribs.
The ribs must touch the plate and not be wider than it. -/
theorem C62_tets_partial {lx ly t : K} {ax ay : RibArgs K} {rx ry : Option (K × K × K)} (hx : IsRibs ax rx) (hy : IsRibs ay ry)
    (h : PlateOK lx ly t rx ry) {l : LMax K} (hl : LMaxOK l) {order : Nat} (ho : order = 1 ∨ order = 2) :
    ∃ C T, ribbedPlate lx ly t ax ay l order true = some (C, T) ∧ TetMesh (lcTet order) C T (RibbedPlate lx ly t rx ry) := by
  obtain rfl := hx.get
  obtain rfl := hy.get
  obtain ⟨bx, bY, bz, C, T, e1, e2, e3, e4, ⟨centers, e5, pm, og⟩, hmax⟩ := plate_kept h hl ho
  rcases ho with rfl | rfl
  · obtain ⟨T', c, tt, f1, f2, f3⟩ := split_H8_TET4.mesh pm
    refine ⟨c, tt, ?_, f3⟩
    have f1 : transformTopology (maskRows T centers (plateKeep t ax.get ay.get)) pathH8TET4 4 0 = some T' := f1
    simp only [ribbedPlate, e1, e2, e3, e4, e5, plateTets, Option.bind_eq_bind, Option.bind_some, if_true, f1, f2]
  · obtain ⟨T', c, tt, f1, f2, f3⟩ := split_H27_TET10.mesh pm
    refine ⟨c, tt, ?_, f3⟩
    have f1 : transformTopology (maskRows T centers (plateKeep t ax.get ay.get)) pathH27TET10 10 0 = some T' := f1
    simp only [ribbedPlate, e1, e2, e3, e4, e5, plateTets, Option.bind_eq_bind, Option.bind_some, if_true,
      show ¬ (2 = 1) by decide, if_false, f1, f2]

/-- Any other order is an error. -/
theorem C62_order {lx ly t : K} {ax ay : RibArgs K} {l : LMax K} {order : Nat} (ho : order ≠ 1 ∧ order ≠ 2) (tet : Bool) :
    ribbedPlate lx ly t ax ay l order tet = none := by
  have : ∀ bins : List (List K), plateGrid bins order = none := fun bins => by simp [plateGrid, ho.1, ho.2]
  unfold ribbedPlate
  simp only [this, Option.bind_eq_bind, Option.bind_none, Option.bind_fun_none]

end
end PM
