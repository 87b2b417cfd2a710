import Verif.PropsVolumes
import Verif.PropsSimplices
import Mathlib.Tactic.LinearCombination
import Mathlib.Tactic.Positivity
import Mathlib.Tactic.IntervalCases

/-!
# C14: convex hexahedra

`H8_to_TET4` for every convex hexahedron with plane faces, not only for affine images of the master cell.
-/

namespace PM

open V3

section
variable {K : Type} [Field K] [LinearOrder K] [IsStrictOrderedRing K]

/-! ## specification -/

/-- The faces of a hexahedron, counterclockwise as seen from inside. -/
def hexInward : List (List Nat) := [[0, 3, 7, 4], [1, 5, 6, 2], [0, 4, 5, 1], [2, 6, 7, 3], [0, 1, 2, 3], [4, 7, 6, 5]]

/-- A convex hexahedron: faces are plane, and every other node lies strictly inside of the plane of any three consecutive
nodes of a face. -/
structure ConvexHex (X : Nat → V3 K) : Prop where
  plane : ∀ f ∈ hexInward, vol6 (X (f.getD 0 0)) (X (f.getD 1 0)) (X (f.getD 2 0)) (X (f.getD 3 0)) = 0
  inside : ∀ f ∈ hexInward, ∀ k < 4, ∀ n < 8, n ∉ f →
    0 < vol6 (X (f.getD k 0)) (X (f.getD ((k + 1) % 4) 0)) (X (f.getD ((k + 2) % 4) 0)) (X n)

/-! ## lemmas -/

omit [LinearOrder K] [IsStrictOrderedRing K] in
/-- Volumes of tetrahedra, under exchanges of two corners. -/
theorem vol6_swap12 (a b c d : V3 K) : vol6 b a c d = - vol6 a b c d := by simp [vol6, det3]; ring
omit [LinearOrder K] [IsStrictOrderedRing K] in
theorem vol6_swap23 (a b c d : V3 K) : vol6 a c b d = - vol6 a b c d := by simp [vol6, det3]; ring
omit [LinearOrder K] [IsStrictOrderedRing K] in
theorem vol6_swap34 (a b c d : V3 K) : vol6 a b d c = - vol6 a b c d := by simp [vol6, det3]; ring

/-- A linear function of the place is not negative in a hull if it is not negative at the corners. -/
theorem hull_nonneg {pts : List (V3 K)} {p : V3 K} (h : Hull pts p) (n : V3 K) (d : K)
    (hq : ∀ q ∈ pts, 0 ≤ dot n q + d) : 0 ≤ dot n p + d := by
  obtain ⟨w, hl, hw, hs, rfl⟩ := h
  have key : ∀ (w : List K) (pts : List (V3 K)), w.length = pts.length → (∀ a ∈ w, 0 ≤ a) →
      (∀ q ∈ pts, 0 ≤ dot n q + d) → 0 ≤ dot n (lincomb w pts) + w.sum * d := by
    intro w
    induction w with
    | nil => intro pts hl _ _; cases pts <;> simp_all [lincomb, dot]
    | cons a w ih =>
      intro pts hl hw hq
      cases pts with
      | nil => simp at hl
      | cons q pts =>
        have h1 := ih pts (by simpa using hl) (fun b hb => hw b (List.mem_cons_of_mem _ hb))
          (fun b hb => hq b (List.mem_cons_of_mem _ hb))
        have h2 := mul_nonneg (hw a List.mem_cons_self) (hq q List.mem_cons_self)
        have : dot n (lincomb (a :: w) (q :: pts)) + (a :: w).sum * d =
            a * (dot n q + d) + (dot n (lincomb w pts) + w.sum * d) := by
          simp [lincomb, dot]; ring
        rw [this]
        exact add_nonneg h2 h1
  simpa [hs] using key w pts hl hw hq

/-- In the interior it is positive, if it is at one corner. -/
theorem openHull_pos {pts : List (V3 K)} {p : V3 K} (h : OpenHull pts p) (n : V3 K) (d : K)
    (hq : ∀ q ∈ pts, 0 ≤ dot n q + d) (hp : ∃ q ∈ pts, 0 < dot n q + d) : 0 < dot n p + d := by
  obtain ⟨w, hl, hw, hs, rfl⟩ := h
  have key : ∀ (w : List K) (pts : List (V3 K)), w.length = pts.length → (∀ a ∈ w, 0 < a) →
      (∀ q ∈ pts, 0 ≤ dot n q + d) → 0 ≤ dot n (lincomb w pts) + w.sum * d ∧
        ((∃ q ∈ pts, 0 < dot n q + d) → 0 < dot n (lincomb w pts) + w.sum * d) := by
    intro w
    induction w with
    | nil => intro pts hl _ _; cases pts <;> simp_all [lincomb, dot]
    | cons a w ih =>
      intro pts hl hw hq
      cases pts with
      | nil => simp at hl
      | cons q pts =>
        obtain ⟨h1, h1'⟩ := ih pts (by simpa using hl) (fun b hb => hw b (List.mem_cons_of_mem _ hb))
          (fun b hb => hq b (List.mem_cons_of_mem _ hb))
        have ha := hw a List.mem_cons_self
        have h2 := mul_nonneg ha.le (hq q List.mem_cons_self)
        have : dot n (lincomb (a :: w) (q :: pts)) + (a :: w).sum * d =
            a * (dot n q + d) + (dot n (lincomb w pts) + w.sum * d) := by
          simp [lincomb, dot]; ring
        rw [this]
        refine ⟨add_nonneg h2 h1, ?_⟩
        rintro ⟨r, hr, hr'⟩
        rcases List.mem_cons.1 hr with rfl | hr
        · exact add_pos_of_pos_of_nonneg (mul_pos ha hr') h1
        · exact add_pos_of_nonneg_of_pos h2 (h1' ⟨r, hr, hr'⟩)
  simpa [hs] using (key w pts hl hw hq).2 hp

omit [LinearOrder K] [IsStrictOrderedRing K] in
/-- The volume is a linear function of the fourth corner. -/
theorem vol6_linear (a b c p : V3 K) : vol6 a b c p = dot (cross (b - a) (c - a)) p + - dot (cross (b - a) (c - a)) a := by
  simp [vol6, det3, dot, cross]; ring

/-- A tetrahedron is where its four planes say. -/
theorem hull_of_tet {a b c d p : V3 K} (hV : 0 < vol6 a b c d) (h1 : 0 ≤ vol6 p b c d) (h2 : 0 ≤ vol6 a p c d)
    (h3 : 0 ≤ vol6 a b p d) (h4 : 0 ≤ vol6 a b c p) : Hull [a, b, c, d] p := by
  have hs : vol6 p b c d + vol6 a p c d + vol6 a b p d + vol6 a b c p = vol6 a b c d := by
    simp [vol6, det3]; ring
  have hx : vol6 p b c d * a.x + vol6 a p c d * b.x + vol6 a b p d * c.x + vol6 a b c p * d.x = vol6 a b c d * p.x := by
    simp [vol6, det3]; ring
  have hy : vol6 p b c d * a.y + vol6 a p c d * b.y + vol6 a b p d * c.y + vol6 a b c p * d.y = vol6 a b c d * p.y := by
    simp [vol6, det3]; ring
  have hz : vol6 p b c d * a.z + vol6 a p c d * b.z + vol6 a b p d * c.z + vol6 a b c p * d.z = vol6 a b c d * p.z := by
    simp [vol6, det3]; ring
  have hne := hV.ne'
  refine hull_nil4 a b c d (vol6 p b c d / vol6 a b c d) (vol6 a p c d / vol6 a b c d) (vol6 a b p d / vol6 a b c d)
    (vol6 a b c p / vol6 a b c d) (div_nonneg h1 hV.le) (div_nonneg h2 hV.le) (div_nonneg h3 hV.le) (div_nonneg h4 hV.le)
    ?_ p ?_ ?_ ?_
  · rw [← add_div, ← add_div, ← add_div, hs, div_self hne]
  · rw [div_mul_eq_mul_div, div_mul_eq_mul_div, div_mul_eq_mul_div, div_mul_eq_mul_div, ← add_div, ← add_div, ← add_div, hx,
      mul_div_cancel_left₀ _ hne]
  · rw [div_mul_eq_mul_div, div_mul_eq_mul_div, div_mul_eq_mul_div, div_mul_eq_mul_div, ← add_div, ← add_div, ← add_div, hy,
      mul_div_cancel_left₀ _ hne]
  · rw [div_mul_eq_mul_div, div_mul_eq_mul_div, div_mul_eq_mul_div, div_mul_eq_mul_div, ← add_div, ← add_div, ← add_div, hz,
      mul_div_cancel_left₀ _ hne]

omit [LinearOrder K] [IsStrictOrderedRing K] in
/-- Cramer's rule at the corner `o`. -/
theorem cramer_corner (o a b c v : V3 K) : vol6 o a b c • (v - o) =
    vol6 o v b c • (a - o) + (vol6 o a v c • (b - o) + vol6 o a b v • (c - o)) := by
  ext <;> simp [vol6, det3] <;> ring

/-- At a corner `o` with the neighbours `a b c`, and the opposite corners `p` (of the face of `a` and `b`), `q` (of `a`
and `c`) and `r` (of `b` and `c`). -/
theorem corner_signs {o a b c p q r : V3 K} (hD : 0 < vol6 o a b c) (hp : vol6 o a b p = 0) (hq : vol6 o a q c = 0)
    (hr : vol6 o r b c = 0) (p1 : 0 < vol6 o p b c) (p2 : 0 < vol6 o a p c) (q1 : 0 < vol6 o q b c) (q3 : 0 < vol6 o a b q)
    (r2 : 0 < vol6 o a r c) (r3 : 0 < vol6 o a b r) :
    0 < vol6 o q p r ∧ 0 < vol6 o q p b ∧ 0 < vol6 o q p c ∧ 0 < vol6 o p r a ∧ 0 < vol6 o p r c ∧
      0 < vol6 o r q a ∧ 0 < vol6 o r q b := by
  have cp := cramer_corner o a b c p
  have cq := cramer_corner o a b c q
  have cr := cramer_corner o a b c r
  set D := vol6 o a b c with hDd
  rw [hp] at cp
  rw [hq] at cq
  rw [hr] at cr
  have scale : ∀ u v w : V3 K, D ^ 3 * det3 u v w = det3 (D • u) (D • v) (D • w) := by
    intro u v w; simp [det3]; ring
  have scale2 : ∀ u v w : V3 K, D ^ 2 * det3 u v w = det3 (D • u) (D • v) w := by
    intro u v w; simp [det3]; ring
  have hdet : det3 (a - o) (b - o) (c - o) = D := rfl
  have expand : ∀ (x1 x2 x3 y1 y2 y3 z1 z2 z3 : K) (u v w : V3 K),
      det3 (x1 • u + (x2 • v + x3 • w)) (y1 • u + (y2 • v + y3 • w)) (z1 • u + (z2 • v + z3 • w)) =
        (x1 * (y2 * z3 - y3 * z2) - x2 * (y1 * z3 - y3 * z1) + x3 * (y1 * z2 - y2 * z1)) * det3 u v w := by
    intros; simp [det3]; ring
  have xa : ∀ (x1 x2 x3 y1 y2 y3 : K) (u v w : V3 K),
      det3 (x1 • u + (x2 • v + x3 • w)) (y1 • u + (y2 • v + y3 • w)) u = (x2 * y3 - x3 * y2) * det3 u v w := by
    intros; simp [det3]; ring
  have xb : ∀ (x1 x2 x3 y1 y2 y3 : K) (u v w : V3 K),
      det3 (x1 • u + (x2 • v + x3 • w)) (y1 • u + (y2 • v + y3 • w)) v = (x3 * y1 - x1 * y3) * det3 u v w := by
    intros; simp [det3]; ring
  have xc : ∀ (x1 x2 x3 y1 y2 y3 : K) (u v w : V3 K),
      det3 (x1 • u + (x2 • v + x3 • w)) (y1 • u + (y2 • v + y3 • w)) w = (x1 * y2 - x2 * y1) * det3 u v w := by
    intros; simp [det3]; ring
  have d3 : 0 < D ^ 3 := by positivity
  have d2 : 0 < D ^ 2 := by positivity
  refine ⟨?_, ?_, ?_, ?_, ?_, ?_, ?_⟩
  · have e : D ^ 3 * vol6 o q p r = _ := scale (q - o) (p - o) (r - o)
    rw [cp, cq, cr, expand, hdet] at e
    refine pos_of_mul_pos_right (a := D ^ 3) ?_ d3.le
    rw [e]
    refine mul_pos ?_ hD
    ring_nf
    have := mul_pos (mul_pos q1 p2) r3
    have := mul_pos (mul_pos q3 p1) r2
    nlinarith
  · have e : D ^ 2 * vol6 o q p b = _ := scale2 (q - o) (p - o) (b - o)
    rw [cp, cq, xb, hdet] at e
    refine pos_of_mul_pos_right (a := D ^ 2) ?_ d2.le
    rw [e]
    refine mul_pos ?_ hD
    have := mul_pos q3 p1
    ring_nf at this ⊢
    exact this
  · have e : D ^ 2 * vol6 o q p c = _ := scale2 (q - o) (p - o) (c - o)
    rw [cp, cq, xc, hdet] at e
    refine pos_of_mul_pos_right (a := D ^ 2) ?_ d2.le
    rw [e]
    refine mul_pos ?_ hD
    have := mul_pos q1 p2
    ring_nf at this ⊢
    exact this
  · have e : D ^ 2 * vol6 o p r a = _ := scale2 (p - o) (r - o) (a - o)
    rw [cp, cr, xa, hdet] at e
    refine pos_of_mul_pos_right (a := D ^ 2) ?_ d2.le
    rw [e]
    refine mul_pos ?_ hD
    have := mul_pos p2 r3
    ring_nf at this ⊢
    exact this
  · have e : D ^ 2 * vol6 o p r c = _ := scale2 (p - o) (r - o) (c - o)
    rw [cp, cr, xc, hdet] at e
    refine pos_of_mul_pos_right (a := D ^ 2) ?_ d2.le
    rw [e]
    refine mul_pos ?_ hD
    have := mul_pos p1 r2
    ring_nf at this ⊢
    exact this
  · have e : D ^ 2 * vol6 o r q a = _ := scale2 (r - o) (q - o) (a - o)
    rw [cq, cr, xa, hdet] at e
    refine pos_of_mul_pos_right (a := D ^ 2) ?_ d2.le
    rw [e]
    refine mul_pos ?_ hD
    have := mul_pos q3 r2
    ring_nf at this ⊢
    exact this
  · have e : D ^ 2 * vol6 o r q b = _ := scale2 (r - o) (q - o) (b - o)
    rw [cq, cr, xb, hdet] at e
    refine pos_of_mul_pos_right (a := D ^ 2) ?_ d2.le
    rw [e]
    refine mul_pos ?_ hD
    have := mul_pos q1 r3
    ring_nf at this ⊢
    exact this

omit [LinearOrder K] [IsStrictOrderedRing K] in
theorem face_zero (a b c d : V3 K) (h : vol6 a b c d = 0) (k j : Nat) (hk : k < 4) (hj : j < 4) :
    vol6 ([a, b, c, d].getD k 0) ([a, b, c, d].getD ((k + 1) % 4) 0) ([a, b, c, d].getD ((k + 2) % 4) 0)
      ([a, b, c, d].getD j 0) = 0 := by
  simp only [vol6, det3, sub_x, sub_y, sub_z] at h
  interval_cases k <;> interval_cases j <;> simp [vol6, det3] <;>
    first | ring1 | linear_combination h | linear_combination -h

omit [IsStrictOrderedRing K] in
theorem ConvexHex.face {X : Nat → V3 K} (h : ConvexHex X) {f : List Nat} (hf : f ∈ hexInward) {k : Nat} (hk : k < 4) {n : Nat}
    (hn : n < 8) :
    0 ≤ vol6 (X (f.getD k 0)) (X (f.getD ((k + 1) % 4) 0)) (X (f.getD ((k + 2) % 4) 0)) (X n) := by
  by_cases hm : n ∈ f
  · obtain ⟨a, b, c, d, rfl⟩ : ∃ a b c d, f = [a, b, c, d] := by
      simp only [hexInward, List.mem_cons, List.not_mem_nil, or_false] at hf
      rcases hf with rfl | rfl | rfl | rfl | rfl | rfl <;> exact ⟨_, _, _, _, rfl⟩
    obtain ⟨j, hj, rfl⟩ : ∃ j < 4, n = [a, b, c, d].getD j 0 := by
      obtain ⟨j, hj, e⟩ := List.getElem_of_mem hm
      exact ⟨j, hj, by rw [List.getD_eq_getElem?_getD, List.getElem?_eq_getElem hj, e]; rfl⟩
    have hz := face_zero (X a) (X b) (X c) (X d) (by simpa using h.plane _ hf) k j hk hj
    have e : ∀ i, i < 4 → [X a, X b, X c, X d].getD i 0 = X ([a, b, c, d].getD i 0) := by
      intro i hi; interval_cases i <;> rfl
    rw [e k hk, e j hj, e _ (Nat.mod_lt _ (by norm_num)), e _ (Nat.mod_lt _ (by norm_num))] at hz
    exact hz.ge
  · exact (h.inside f hf k hk n hn hm).le

/-- The nodes of a hexahedron. -/
def hexNodes (X : Nat → V3 K) : List (V3 K) := (List.range 8).map X

theorem ConvexHex.hull {X : Nat → V3 K} (h : ConvexHex X) {p : V3 K} (hp : Hull (hexNodes X) p) {f : List Nat}
    (hf : f ∈ hexInward) {k : Nat} (hk : k < 4) :
    0 ≤ vol6 (X (f.getD k 0)) (X (f.getD ((k + 1) % 4) 0)) (X (f.getD ((k + 2) % 4) 0)) p := by
  rw [vol6_linear]
  apply hull_nonneg hp
  intro q hq
  obtain ⟨n, hn, rfl⟩ := List.mem_map.1 hq
  rw [← vol6_linear]
  exact h.face hf hk (List.mem_range.1 hn)

/-- A plane that separates two lists of points. -/
theorem open_separated {a b c p : V3 K} {s t : List (V3 K)} (hs : ∀ q ∈ s, 0 ≤ vol6 a b c q) (hs' : ∃ q ∈ s, 0 < vol6 a b c q)
    (ht : ∀ q ∈ t, vol6 a b c q ≤ 0) : ¬ (OpenHull s p ∧ OpenHull t p) := by
  rintro ⟨h1, h2⟩
  have e1 : 0 < vol6 a b c p := by
    rw [vol6_linear]
    exact openHull_pos h1 _ _ (fun q hq => by rw [← vol6_linear]; exact hs q hq)
      (by obtain ⟨q, hq, h⟩ := hs'; exact ⟨q, hq, by rw [← vol6_linear]; exact h⟩)
  have h2' : Hull t p := by
    obtain ⟨w, w1, w2, w3⟩ := h2
    exact ⟨w, w1, fun a ha => (w2 a ha).le, w3⟩
  have e2 : 0 ≤ vol6 a c b p := by
    rw [vol6_linear]
    exact hull_nonneg h2' _ _ (fun q hq => by rw [← vol6_linear, vol6_swap23]; linarith [ht q hq])
  rw [vol6_swap23] at e2
  linarith

omit [LinearOrder K] [IsStrictOrderedRing K] in
theorem vol6_self (a b c : V3 K) : vol6 a b c a = 0 ∧ vol6 a b c b = 0 ∧ vol6 a b c c = 0 := by
  refine ⟨?_, ?_, ?_⟩ <;> · simp [vol6, det3] <;> ring

/-- What the convexity of a hexahedron says about the tetrahedra it is split into. -/
structure HexSigns (X : Nat → V3 K) : Prop where
  v1 : 0 < vol6 (X 1) (X 2) (X 0) (X 5)
  v3 : 0 < vol6 (X 3) (X 0) (X 2) (X 7)
  v4 : 0 < vol6 (X 5) (X 4) (X 7) (X 0)
  v6 : 0 < vol6 (X 6) (X 5) (X 7) (X 2)
  v : 0 < vol6 (X 0) (X 2) (X 7) (X 5)
  a3 : 0 < vol6 (X 0) (X 5) (X 2) (X 3)
  a4 : 0 < vol6 (X 0) (X 5) (X 2) (X 4)
  a6 : 0 < vol6 (X 0) (X 5) (X 2) (X 6)
  b4 : 0 < vol6 (X 0) (X 2) (X 7) (X 4)
  b6 : 0 < vol6 (X 0) (X 2) (X 7) (X 6)
  c6 : 0 < vol6 (X 0) (X 7) (X 5) (X 6)

theorem ConvexHex.signs {X : Nat → V3 K} (h : ConvexHex X) : HexSigns X := by
  have P := h.plane
  have I := h.inside
  have p0 := P [0, 3, 7, 4] (by decide)
  have p1 := P [1, 5, 6, 2] (by decide)
  have p2 := P [0, 4, 5, 1] (by decide)
  have p3 := P [2, 6, 7, 3] (by decide)
  have p4 := P [0, 1, 2, 3] (by decide)
  have p5 := P [4, 7, 6, 5] (by decide)
  -- corner 0
  have a1 := I [0, 1, 2, 3] (by decide) 3 (by decide) 4 (by decide) (by decide)
  have a2 := I [0, 3, 7, 4] (by decide) 3 (by decide) 2 (by decide) (by decide)
  have a3 := I [0, 4, 5, 1] (by decide) 3 (by decide) 2 (by decide) (by decide)
  have a4 := I [0, 3, 7, 4] (by decide) 3 (by decide) 5 (by decide) (by decide)
  have a5 := I [0, 1, 2, 3] (by decide) 3 (by decide) 5 (by decide) (by decide)
  have a6 := I [0, 4, 5, 1] (by decide) 3 (by decide) 7 (by decide) (by decide)
  have a7 := I [0, 1, 2, 3] (by decide) 3 (by decide) 7 (by decide) (by decide)
  -- corner 2
  have b1 := I [0, 1, 2, 3] (by decide) 1 (by decide) 6 (by decide) (by decide)
  have b2 := I [1, 5, 6, 2] (by decide) 2 (by decide) 0 (by decide) (by decide)
  have b3 := I [2, 6, 7, 3] (by decide) 3 (by decide) 0 (by decide) (by decide)
  have b4 := I [1, 5, 6, 2] (by decide) 2 (by decide) 7 (by decide) (by decide)
  have b5 := I [0, 1, 2, 3] (by decide) 1 (by decide) 7 (by decide) (by decide)
  have b6 := I [2, 6, 7, 3] (by decide) 3 (by decide) 5 (by decide) (by decide)
  have b7 := I [0, 1, 2, 3] (by decide) 1 (by decide) 5 (by decide) (by decide)
  -- corner 5
  have c1 := I [4, 7, 6, 5] (by decide) 2 (by decide) 1 (by decide) (by decide)
  have c2 := I [1, 5, 6, 2] (by decide) 0 (by decide) 7 (by decide) (by decide)
  have c3 := I [0, 4, 5, 1] (by decide) 1 (by decide) 7 (by decide) (by decide)
  have c4 := I [1, 5, 6, 2] (by decide) 0 (by decide) 0 (by decide) (by decide)
  have c5 := I [4, 7, 6, 5] (by decide) 2 (by decide) 0 (by decide) (by decide)
  have c6 := I [0, 4, 5, 1] (by decide) 1 (by decide) 2 (by decide) (by decide)
  have c7 := I [4, 7, 6, 5] (by decide) 2 (by decide) 2 (by decide) (by decide)
  -- the other tetrahedra
  have d1 := I [0, 1, 2, 3] (by decide) 0 (by decide) 5 (by decide) (by decide)
  have d3 := I [0, 1, 2, 3] (by decide) 2 (by decide) 7 (by decide) (by decide)
  have d4 := I [4, 7, 6, 5] (by decide) 3 (by decide) 0 (by decide) (by decide)
  have d6 := I [4, 7, 6, 5] (by decide) 1 (by decide) 2 (by decide) (by decide)
  clear P I
  simp only [List.getD_cons_zero, List.getD_cons_succ, Nat.reduceAdd, Nat.reduceMod, vol6, det3, sub_x, sub_y, sub_z] at *
  have k0 := corner_signs (o := X 0) (a := X 1) (b := X 3) (c := X 4) (p := X 2) (q := X 5) (r := X 7)
    (by simp only [vol6, det3, sub_x, sub_y, sub_z]; linarith only [a1])
    (by simp only [vol6, det3, sub_x, sub_y, sub_z]; linarith only [p4])
    (by simp only [vol6, det3, sub_x, sub_y, sub_z]; linarith only [p2])
    (by simp only [vol6, det3, sub_x, sub_y, sub_z]; linarith only [p0])
    (by simp only [vol6, det3, sub_x, sub_y, sub_z]; linarith only [a2])
    (by simp only [vol6, det3, sub_x, sub_y, sub_z]; linarith only [a3])
    (by simp only [vol6, det3, sub_x, sub_y, sub_z]; linarith only [a4])
    (by simp only [vol6, det3, sub_x, sub_y, sub_z]; linarith only [a5])
    (by simp only [vol6, det3, sub_x, sub_y, sub_z]; linarith only [a6])
    (by simp only [vol6, det3, sub_x, sub_y, sub_z]; linarith only [a7])
  have k2 := corner_signs (o := X 2) (a := X 3) (b := X 1) (c := X 6) (p := X 0) (q := X 7) (r := X 5)
    (by simp only [vol6, det3, sub_x, sub_y, sub_z]; linarith only [b1])
    (by simp only [vol6, det3, sub_x, sub_y, sub_z]; linarith only [p4])
    (by simp only [vol6, det3, sub_x, sub_y, sub_z]; linarith only [p3])
    (by simp only [vol6, det3, sub_x, sub_y, sub_z]; linarith only [p1])
    (by simp only [vol6, det3, sub_x, sub_y, sub_z]; linarith only [b2])
    (by simp only [vol6, det3, sub_x, sub_y, sub_z]; linarith only [b3])
    (by simp only [vol6, det3, sub_x, sub_y, sub_z]; linarith only [b4])
    (by simp only [vol6, det3, sub_x, sub_y, sub_z]; linarith only [b5])
    (by simp only [vol6, det3, sub_x, sub_y, sub_z]; linarith only [b6])
    (by simp only [vol6, det3, sub_x, sub_y, sub_z]; linarith only [b7])
  have k5 := corner_signs (o := X 5) (a := X 4) (b := X 6) (c := X 1) (p := X 7) (q := X 0) (r := X 2)
    (by simp only [vol6, det3, sub_x, sub_y, sub_z]; linarith only [c1])
    (by simp only [vol6, det3, sub_x, sub_y, sub_z]; linarith only [p5])
    (by simp only [vol6, det3, sub_x, sub_y, sub_z]; linarith only [p2])
    (by simp only [vol6, det3, sub_x, sub_y, sub_z]; linarith only [p1])
    (by simp only [vol6, det3, sub_x, sub_y, sub_z]; linarith only [c2])
    (by simp only [vol6, det3, sub_x, sub_y, sub_z]; linarith only [c3])
    (by simp only [vol6, det3, sub_x, sub_y, sub_z]; linarith only [c4])
    (by simp only [vol6, det3, sub_x, sub_y, sub_z]; linarith only [c5])
    (by simp only [vol6, det3, sub_x, sub_y, sub_z]; linarith only [c6])
    (by simp only [vol6, det3, sub_x, sub_y, sub_z]; linarith only [c7])
  obtain ⟨e1, e2, e3, -, e5, -, -⟩ := k0
  obtain ⟨-, -, f3, -, f5, -, -⟩ := k2
  obtain ⟨-, g2, -, -, -, -, -⟩ := k5
  clear p0 p1 p2 p3 p4 p5 a1 a2 a3 a4 a5 a6 a7 b1 b2 b3 b4 b5 b6 b7 c1 c2 c3 c4 c5 c6 c7
  simp only [vol6, det3, sub_x, sub_y, sub_z] at e1 e2 e3 e5 f3 f5 g2
  constructor <;> simp only [vol6, det3, sub_x, sub_y, sub_z]
  · linarith only [d1]
  · linarith only [d3]
  · linarith only [d4]
  · linarith only [d6]
  · linarith only [e1]
  · linarith only [e2]
  · linarith only [e3]
  · linarith only [f5]
  · linarith only [e5]
  · linarith only [f3]
  · linarith only [g2]

/-- **C14** `H8_to_TET4`: every convex hexahedron with plane faces. The tetrahedra have positive volumes, cover the
hexahedron, lie in it and do not overlap. -/
theorem C14_H8_convex {X : Nat → V3 K} (h : ConvexHex X) :
    (∀ t ∈ pathH8TET4, 0 < vol6 (sub X t 0) (sub X t 1) (sub X t 2) (sub X t 3)) ∧
    (∀ p, Hull (hexNodes X) p ↔ ∃ t ∈ pathH8TET4, Hull (t.map X) p) ∧
    (∀ (i j : Nat) (s t : List Nat), pathH8TET4[i]? = some s → pathH8TET4[j]? = some t → i ≠ j →
      ∀ p, ¬ (OpenHull (s.map X) p ∧ OpenHull (t.map X) p)) := by
  have S := h.signs
  have self := @vol6_self K _
  refine ⟨?_, ?_, ?_⟩
  · intro t ht
    simp only [pathH8TET4, List.mem_cons, List.not_mem_nil, or_false] at ht
    rcases ht with rfl | rfl | rfl | rfl | rfl
    exacts [S.v1, S.v3, S.v4, S.v6, S.v]
  · intro p
    constructor
    · intro hp
      have H := fun (f : List Nat) (hf : f ∈ hexInward) (k : Nat) (hk : k < 4) => h.hull hp hf hk
      by_cases q1 : 0 ≤ vol6 p (X 2) (X 0) (X 5)
      · refine ⟨[1, 2, 0, 5], by decide, hull_of_tet S.v1 q1 ?_ ?_ ?_⟩
        · have := H [0, 4, 5, 1] (by decide) 2 (by decide)
          simp only [List.getD_cons_zero, List.getD_cons_succ, Nat.reduceAdd, Nat.reduceMod] at this
          simp only [vol6, det3, sub_x, sub_y, sub_z] at this ⊢
          linarith only [this]
        · have := H [1, 5, 6, 2] (by decide) 3 (by decide)
          simp only [List.getD_cons_zero, List.getD_cons_succ, Nat.reduceAdd, Nat.reduceMod] at this
          simp only [vol6, det3, sub_x, sub_y, sub_z] at this ⊢
          linarith only [this]
        · have := H [0, 1, 2, 3] (by decide) 0 (by decide)
          simp only [List.getD_cons_zero, List.getD_cons_succ, Nat.reduceAdd, Nat.reduceMod] at this
          simp only [vol6, det3, sub_x, sub_y, sub_z] at this ⊢
          linarith only [this]
      by_cases q3 : 0 ≤ vol6 p (X 0) (X 2) (X 7)
      · refine ⟨[3, 0, 2, 7], by decide, hull_of_tet S.v3 q3 ?_ ?_ ?_⟩
        · have := H [2, 6, 7, 3] (by decide) 2 (by decide)
          simp only [List.getD_cons_zero, List.getD_cons_succ, Nat.reduceAdd, Nat.reduceMod] at this
          simp only [vol6, det3, sub_x, sub_y, sub_z] at this ⊢
          linarith only [this]
        · have := H [0, 3, 7, 4] (by decide) 0 (by decide)
          simp only [List.getD_cons_zero, List.getD_cons_succ, Nat.reduceAdd, Nat.reduceMod] at this
          simp only [vol6, det3, sub_x, sub_y, sub_z] at this ⊢
          linarith only [this]
        · have := H [0, 1, 2, 3] (by decide) 2 (by decide)
          simp only [List.getD_cons_zero, List.getD_cons_succ, Nat.reduceAdd, Nat.reduceMod] at this
          simp only [vol6, det3, sub_x, sub_y, sub_z] at this ⊢
          linarith only [this]
      by_cases q4 : 0 ≤ vol6 (X 5) p (X 7) (X 0)
      · refine ⟨[5, 4, 7, 0], by decide, hull_of_tet S.v4 ?_ q4 ?_ ?_⟩
        · have := H [0, 3, 7, 4] (by decide) 2 (by decide)
          simp only [List.getD_cons_zero, List.getD_cons_succ, Nat.reduceAdd, Nat.reduceMod] at this
          simp only [vol6, det3, sub_x, sub_y, sub_z] at this ⊢
          linarith only [this]
        · have := H [0, 4, 5, 1] (by decide) 0 (by decide)
          simp only [List.getD_cons_zero, List.getD_cons_succ, Nat.reduceAdd, Nat.reduceMod] at this
          simp only [vol6, det3, sub_x, sub_y, sub_z] at this ⊢
          linarith only [this]
        · have := H [4, 7, 6, 5] (by decide) 3 (by decide)
          simp only [List.getD_cons_zero, List.getD_cons_succ, Nat.reduceAdd, Nat.reduceMod] at this
          simp only [vol6, det3, sub_x, sub_y, sub_z] at this ⊢
          linarith only [this]
      by_cases q6 : 0 ≤ vol6 p (X 5) (X 7) (X 2)
      · refine ⟨[6, 5, 7, 2], by decide, hull_of_tet S.v6 q6 ?_ ?_ ?_⟩
        · have := H [2, 6, 7, 3] (by decide) 0 (by decide)
          simp only [List.getD_cons_zero, List.getD_cons_succ, Nat.reduceAdd, Nat.reduceMod] at this
          simp only [vol6, det3, sub_x, sub_y, sub_z] at this ⊢
          linarith only [this]
        · have := H [1, 5, 6, 2] (by decide) 1 (by decide)
          simp only [List.getD_cons_zero, List.getD_cons_succ, Nat.reduceAdd, Nat.reduceMod] at this
          simp only [vol6, det3, sub_x, sub_y, sub_z] at this ⊢
          linarith only [this]
        · have := H [4, 7, 6, 5] (by decide) 1 (by decide)
          simp only [List.getD_cons_zero, List.getD_cons_succ, Nat.reduceAdd, Nat.reduceMod] at this
          simp only [vol6, det3, sub_x, sub_y, sub_z] at this ⊢
          linarith only [this]
      refine ⟨[0, 2, 7, 5], by decide, hull_of_tet S.v ?_ ?_ ?_ ?_⟩
      all_goals
        push Not at q1 q3 q4 q6
        simp only [vol6, det3, sub_x, sub_y, sub_z] at q1 q3 q4 q6 ⊢
      · linarith only [q6]
      · linarith only [q4]
      · linarith only [q1]
      · linarith only [q3]
    · rintro ⟨t, ht, w, hl, hw, hs, e⟩
      simp only [pathH8TET4, List.mem_cons, List.not_mem_nil, or_false] at ht
      rcases ht with rfl | rfl | rfl | rfl | rfl
      all_goals
        obtain ⟨a, b, c, d, rfl⟩ : ∃ a b c d, w = [a, b, c, d] := by
          match w, hl with
          | [a, b, c, d], _ => exact ⟨a, b, c, d, rfl⟩
        have ha := hw a (by simp)
        have hb := hw b (by simp)
        have hc := hw c (by simp)
        have hd := hw d (by simp)
        subst e
        simp only [List.sum_cons, List.sum_nil] at hs
      · refine ⟨[c, a, b, 0, 0, d, 0, 0], by simp [hexNodes], by simp [ha, hb, hc, hd], by simp only [List.sum_cons, List.sum_nil]; linarith, ?_⟩
        rw [hexNodes, show List.range 8 = [0, 1, 2, 3, 4, 5, 6, 7] from rfl]
        ext <;> simp [lincomb] <;> ring
      · refine ⟨[b, 0, c, a, 0, 0, 0, d], by simp [hexNodes], by simp [ha, hb, hc, hd], by simp only [List.sum_cons, List.sum_nil]; linarith, ?_⟩
        rw [hexNodes, show List.range 8 = [0, 1, 2, 3, 4, 5, 6, 7] from rfl]
        ext <;> simp [lincomb] <;> ring
      · refine ⟨[d, 0, 0, 0, b, a, 0, c], by simp [hexNodes], by simp [ha, hb, hc, hd], by simp only [List.sum_cons, List.sum_nil]; linarith, ?_⟩
        rw [hexNodes, show List.range 8 = [0, 1, 2, 3, 4, 5, 6, 7] from rfl]
        ext <;> simp [lincomb] <;> ring
      · refine ⟨[0, 0, d, 0, 0, b, a, c], by simp [hexNodes], by simp [ha, hb, hc, hd], by simp only [List.sum_cons, List.sum_nil]; linarith, ?_⟩
        rw [hexNodes, show List.range 8 = [0, 1, 2, 3, 4, 5, 6, 7] from rfl]
        ext <;> simp [lincomb] <;> ring
      · refine ⟨[a, 0, b, 0, 0, d, 0, c], by simp [hexNodes], by simp [ha, hb, hc, hd], by simp only [List.sum_cons, List.sum_nil]; linarith, ?_⟩
        rw [hexNodes, show List.range 8 = [0, 1, 2, 3, 4, 5, 6, 7] from rfl]
        ext <;> simp [lincomb] <;> ring
  · have x0273 : vol6 (X 0) (X 2) (X 7) (X 3) < 0 := by
      have := S.v3
      simp only [vol6, det3, sub_x, sub_y, sub_z] at this ⊢
      linarith only [this]
    have x0274 : 0 < vol6 (X 0) (X 2) (X 7) (X 4) := by
      have := S.b4
      simp only [vol6, det3, sub_x, sub_y, sub_z] at this ⊢
      linarith only [this]
    have x0275 : 0 < vol6 (X 0) (X 2) (X 7) (X 5) := by
      have := S.v
      simp only [vol6, det3, sub_x, sub_y, sub_z] at this ⊢
      linarith only [this]
    have x0276 : 0 < vol6 (X 0) (X 2) (X 7) (X 6) := by
      have := S.b6
      simp only [vol6, det3, sub_x, sub_y, sub_z] at this ⊢
      linarith only [this]
    have x0521 : vol6 (X 0) (X 5) (X 2) (X 1) < 0 := by
      have := S.v1
      simp only [vol6, det3, sub_x, sub_y, sub_z] at this ⊢
      linarith only [this]
    have x0523 : 0 < vol6 (X 0) (X 5) (X 2) (X 3) := by
      have := S.a3
      simp only [vol6, det3, sub_x, sub_y, sub_z] at this ⊢
      linarith only [this]
    have x0524 : 0 < vol6 (X 0) (X 5) (X 2) (X 4) := by
      have := S.a4
      simp only [vol6, det3, sub_x, sub_y, sub_z] at this ⊢
      linarith only [this]
    have x0526 : 0 < vol6 (X 0) (X 5) (X 2) (X 6) := by
      have := S.a6
      simp only [vol6, det3, sub_x, sub_y, sub_z] at this ⊢
      linarith only [this]
    have x0527 : 0 < vol6 (X 0) (X 5) (X 2) (X 7) := by
      have := S.v
      simp only [vol6, det3, sub_x, sub_y, sub_z] at this ⊢
      linarith only [this]
    have x0752 : 0 < vol6 (X 0) (X 7) (X 5) (X 2) := by
      have := S.v
      simp only [vol6, det3, sub_x, sub_y, sub_z] at this ⊢
      linarith only [this]
    have x0754 : vol6 (X 0) (X 7) (X 5) (X 4) < 0 := by
      have := S.v4
      simp only [vol6, det3, sub_x, sub_y, sub_z] at this ⊢
      linarith only [this]
    have x0756 : 0 < vol6 (X 0) (X 7) (X 5) (X 6) := by
      have := S.c6
      simp only [vol6, det3, sub_x, sub_y, sub_z] at this ⊢
      linarith only [this]
    have x5720 : 0 < vol6 (X 5) (X 7) (X 2) (X 0) := by
      have := S.v
      simp only [vol6, det3, sub_x, sub_y, sub_z] at this ⊢
      linarith only [this]
    have x5726 : vol6 (X 5) (X 7) (X 2) (X 6) < 0 := by
      have := S.v6
      simp only [vol6, det3, sub_x, sub_y, sub_z] at this ⊢
      linarith only [this]
    have key : ∀ (i j : Nat) (s t : List Nat), pathH8TET4[i]? = some s → pathH8TET4[j]? = some t → i < j →
        ∀ p, ¬ (OpenHull (s.map X) p ∧ OpenHull (t.map X) p) := by
      intro i j s t hi hj hij p
      have lj : j < 5 := (List.getElem?_eq_some_iff.1 hj).1
      interval_cases j <;> interval_cases i
      all_goals
        simp only [pathH8TET4, List.getElem?_cons_zero, List.getElem?_cons_succ, Option.some.injEq] at hi hj
        subst hi hj
      · refine fun hh => open_separated (a := X 0) (b := X 5) (c := X 2) ?_ ⟨X 3, by simp, x0523⟩ ?_ hh.symm
        · intro q hq
          simp only [List.map_cons, List.map_nil, List.mem_cons, List.not_mem_nil, or_false] at hq
          rcases hq with rfl | rfl | rfl | rfl
          exacts [x0523.le, (self _ _ _).1.ge, (self _ _ _).2.2.ge, x0527.le]
        · intro q hq
          simp only [List.map_cons, List.map_nil, List.mem_cons, List.not_mem_nil, or_false] at hq
          rcases hq with rfl | rfl | rfl | rfl
          exacts [x0521.le, (self _ _ _).2.2.le, (self _ _ _).1.le, (self _ _ _).2.1.le]
      · refine fun hh => open_separated (a := X 0) (b := X 5) (c := X 2) ?_ ⟨X 4, by simp, x0524⟩ ?_ hh.symm
        · intro q hq
          simp only [List.map_cons, List.map_nil, List.mem_cons, List.not_mem_nil, or_false] at hq
          rcases hq with rfl | rfl | rfl | rfl
          exacts [(self _ _ _).2.1.ge, x0524.le, x0527.le, (self _ _ _).1.ge]
        · intro q hq
          simp only [List.map_cons, List.map_nil, List.mem_cons, List.not_mem_nil, or_false] at hq
          rcases hq with rfl | rfl | rfl | rfl
          exacts [x0521.le, (self _ _ _).2.2.le, (self _ _ _).1.le, (self _ _ _).2.1.le]
      · refine fun hh => open_separated (a := X 0) (b := X 2) (c := X 7) ?_ ⟨X 5, by simp, x0275⟩ ?_ hh.symm
        · intro q hq
          simp only [List.map_cons, List.map_nil, List.mem_cons, List.not_mem_nil, or_false] at hq
          rcases hq with rfl | rfl | rfl | rfl
          exacts [x0275.le, x0274.le, (self _ _ _).2.2.ge, (self _ _ _).1.ge]
        · intro q hq
          simp only [List.map_cons, List.map_nil, List.mem_cons, List.not_mem_nil, or_false] at hq
          rcases hq with rfl | rfl | rfl | rfl
          exacts [x0273.le, (self _ _ _).1.le, (self _ _ _).2.1.le, (self _ _ _).2.2.le]
      · refine fun hh => open_separated (a := X 0) (b := X 5) (c := X 2) ?_ ⟨X 6, by simp, x0526⟩ ?_ hh.symm
        · intro q hq
          simp only [List.map_cons, List.map_nil, List.mem_cons, List.not_mem_nil, or_false] at hq
          rcases hq with rfl | rfl | rfl | rfl
          exacts [x0526.le, (self _ _ _).2.1.ge, x0527.le, (self _ _ _).2.2.ge]
        · intro q hq
          simp only [List.map_cons, List.map_nil, List.mem_cons, List.not_mem_nil, or_false] at hq
          rcases hq with rfl | rfl | rfl | rfl
          exacts [x0521.le, (self _ _ _).2.2.le, (self _ _ _).1.le, (self _ _ _).2.1.le]
      · refine fun hh => open_separated (a := X 0) (b := X 2) (c := X 7) ?_ ⟨X 6, by simp, x0276⟩ ?_ hh.symm
        · intro q hq
          simp only [List.map_cons, List.map_nil, List.mem_cons, List.not_mem_nil, or_false] at hq
          rcases hq with rfl | rfl | rfl | rfl
          exacts [x0276.le, x0275.le, (self _ _ _).2.2.ge, (self _ _ _).2.1.ge]
        · intro q hq
          simp only [List.map_cons, List.map_nil, List.mem_cons, List.not_mem_nil, or_false] at hq
          rcases hq with rfl | rfl | rfl | rfl
          exacts [x0273.le, (self _ _ _).1.le, (self _ _ _).2.1.le, (self _ _ _).2.2.le]
      · refine fun hh => open_separated (a := X 0) (b := X 7) (c := X 5) ?_ ⟨X 6, by simp, x0756⟩ ?_ hh.symm
        · intro q hq
          simp only [List.map_cons, List.map_nil, List.mem_cons, List.not_mem_nil, or_false] at hq
          rcases hq with rfl | rfl | rfl | rfl
          exacts [x0756.le, (self _ _ _).2.2.ge, (self _ _ _).2.1.ge, x0752.le]
        · intro q hq
          simp only [List.map_cons, List.map_nil, List.mem_cons, List.not_mem_nil, or_false] at hq
          rcases hq with rfl | rfl | rfl | rfl
          exacts [(self _ _ _).2.2.le, x0754.le, (self _ _ _).2.1.le, (self _ _ _).1.le]
      · refine fun hh => open_separated (a := X 0) (b := X 5) (c := X 2) ?_ ⟨X 7, by simp, x0527⟩ ?_ hh.symm
        · intro q hq
          simp only [List.map_cons, List.map_nil, List.mem_cons, List.not_mem_nil, or_false] at hq
          rcases hq with rfl | rfl | rfl | rfl
          exacts [(self _ _ _).1.ge, (self _ _ _).2.2.ge, x0527.le, (self _ _ _).2.1.ge]
        · intro q hq
          simp only [List.map_cons, List.map_nil, List.mem_cons, List.not_mem_nil, or_false] at hq
          rcases hq with rfl | rfl | rfl | rfl
          exacts [x0521.le, (self _ _ _).2.2.le, (self _ _ _).1.le, (self _ _ _).2.1.le]
      · refine fun hh => open_separated (a := X 0) (b := X 2) (c := X 7) ?_ ⟨X 5, by simp, x0275⟩ ?_ hh.symm
        · intro q hq
          simp only [List.map_cons, List.map_nil, List.mem_cons, List.not_mem_nil, or_false] at hq
          rcases hq with rfl | rfl | rfl | rfl
          exacts [(self _ _ _).1.ge, (self _ _ _).2.1.ge, (self _ _ _).2.2.ge, x0275.le]
        · intro q hq
          simp only [List.map_cons, List.map_nil, List.mem_cons, List.not_mem_nil, or_false] at hq
          rcases hq with rfl | rfl | rfl | rfl
          exacts [x0273.le, (self _ _ _).1.le, (self _ _ _).2.1.le, (self _ _ _).2.2.le]
      · refine fun hh => open_separated (a := X 0) (b := X 7) (c := X 5) ?_ ⟨X 2, by simp, x0752⟩ ?_ hh.symm
        · intro q hq
          simp only [List.map_cons, List.map_nil, List.mem_cons, List.not_mem_nil, or_false] at hq
          rcases hq with rfl | rfl | rfl | rfl
          exacts [(self _ _ _).1.ge, x0752.le, (self _ _ _).2.1.ge, (self _ _ _).2.2.ge]
        · intro q hq
          simp only [List.map_cons, List.map_nil, List.mem_cons, List.not_mem_nil, or_false] at hq
          rcases hq with rfl | rfl | rfl | rfl
          exacts [(self _ _ _).2.2.le, x0754.le, (self _ _ _).2.1.le, (self _ _ _).1.le]
      · refine fun hh => open_separated (a := X 5) (b := X 7) (c := X 2) ?_ ⟨X 0, by simp, x5720⟩ ?_ hh.symm
        · intro q hq
          simp only [List.map_cons, List.map_nil, List.mem_cons, List.not_mem_nil, or_false] at hq
          rcases hq with rfl | rfl | rfl | rfl
          exacts [x5720.le, (self _ _ _).2.2.ge, (self _ _ _).2.1.ge, (self _ _ _).1.ge]
        · intro q hq
          simp only [List.map_cons, List.map_nil, List.mem_cons, List.not_mem_nil, or_false] at hq
          rcases hq with rfl | rfl | rfl | rfl
          exacts [x5726.le, (self _ _ _).1.le, (self _ _ _).2.1.le, (self _ _ _).2.2.le]
    intro i j s t hi hj hij p
    rcases Nat.lt_or_gt_of_ne hij with hlt | hlt
    · exact key i j s t hi hj hlt p
    · exact fun hh => key j i t s hj hi hlt p hh.symm

theorem ConvexHex.planeFaces {X : Nat → V3 K} (h : ConvexHex X) : PlaneFaces X := by
  have P := h.plane
  have p0 := P [0, 3, 7, 4] (by decide)
  have p1 := P [1, 5, 6, 2] (by decide)
  have p2 := P [0, 4, 5, 1] (by decide)
  have p3 := P [2, 6, 7, 3] (by decide)
  have p4 := P [0, 1, 2, 3] (by decide)
  have p5 := P [4, 7, 6, 5] (by decide)
  simp only [List.getD_cons_zero, List.getD_cons_succ, vol6, det3, sub_x, sub_y, sub_z] at p0 p1 p2 p3 p4 p5
  refine ⟨?_, ?_, ?_, ?_, ?_, ?_⟩ <;> simp only [Coplanar4, vol6, det3, sub_x, sub_y, sub_z]
  · linarith only [p0]
  · linarith only [p1]
  · linarith only [p2]
  · linarith only [p3]
  · linarith only [p4]
  · linarith only [p5]

/-- **C14** `H27_to_TET10`: the straight tetrahedra on the corners of the pieces, for every convex hexahedron. -/
theorem C14_H27_convex {X : Nat → V3 K} (h : ConvexHex X) :
    (∀ t ∈ pathH27TET10, 0 < vol6 (sub X t 0) (sub X t 1) (sub X t 2) (sub X t 3)) ∧
    (∀ p, Hull (hexNodes X) p ↔ ∃ t ∈ pathH27TET10, Hull ((t.take 4).map X) p) ∧
    (∀ (i j : Nat) (s t : List Nat), pathH27TET10[i]? = some s → pathH27TET10[j]? = some t → i ≠ j →
      ∀ p, ¬ (OpenHull ((s.take 4).map X) p ∧ OpenHull ((t.take 4).map X) p)) := by
  obtain ⟨h1, h2, h3⟩ := C14_H8_convex h
  have e := C13_H27_to_TET10
  refine ⟨?_, ?_, ?_⟩
  · intro t ht
    have := h1 (t.take 4) (e ▸ List.mem_map.2 ⟨t, ht, rfl⟩)
    simpa [sub, List.getD_eq_getElem?_getD, List.getElem?_take] using this
  · intro p
    rw [h2 p, ← e]
    simp only [List.mem_map]
    constructor
    · rintro ⟨_, ⟨t, ht, rfl⟩, hp⟩
      exact ⟨t, ht, hp⟩
    · rintro ⟨t, ht, hp⟩
      exact ⟨_, ⟨t, ht, rfl⟩, hp⟩
  · intro i j s t hi hj hij p
    exact h3 i j (s.take 4) (t.take 4) (by rw [← e, List.getElem?_map, hi]; rfl) (by rw [← e, List.getElem?_map, hj]; rfl) hij p

/-- **C89** (volumes of convex hexahedra): the volumes of the tetrahedra of a convex hexahedron with plane faces add up to its
volume by the divergence theorem. -/
theorem C89_convex {P : List (V3 K)} (h : ConvexHex fun n => P.getD n 0) :
    ((cutTets pathH8TET4 P).map tetVolume).sum = hexVol12 (fun n => P.getD n 0) / 12 := by
  have h1 := (C14_H8_convex h).1
  have h2 := C13_H8_to_TET4 _ h.planeFaces
  rw [← h2]
  have e : (cutTets pathH8TET4 P).map tetVolume = pathH8TET4.map fun t =>
      vol6 (sub (fun n => P.getD n 0) t 0) (sub (fun n => P.getD n 0) t 1) (sub (fun n => P.getD n 0) t 2) (sub (fun n => P.getD n 0) t 3) / 6 := by
    rw [cutTets, List.map_map]
    apply List.map_congr_left
    intro t ht
    have := h1 t ht
    simp only [Function.comp, tetVolume]
    exact abs_of_nonneg (div_nonneg this.le (by norm_num))
  rw [e]
  simp [pathH8TET4, tetSum]
  ring

/-- **C89** (volumes of convex hexahedra, in the mesh). -/
theorem C89_convex_volumes (coords : List (V3 K)) (topo : Topo)
    (hne : topo ≠ []) (h : ∀ r ∈ topo, r.length = 8) (pts : List (List (V3 K)))
    (hp : topo.mapM (fun row => row.mapM fun n => coords[n]?) = some pts) :
    ∃ V, volumes3d .H8 coords topo = some V ∧ V.length = topo.length ∧
      ∀ (e : Nat) (P : List (V3 K)), pts[e]? = some P → ConvexHex (fun n => P.getD n 0) →
        V[e]? = some (hexVol12 (fun n => P.getD n 0) / 12) := by
  obtain ⟨V, h1, h2, h3⟩ := C89_volumes .H8 pathH8TET4 rfl coords topo hne h pts hp
  exact ⟨V, h1, h2, fun e P he hc => by rw [h3 e P he, C89_convex hc]⟩

end

/-- A truncated pyramid. -/
def truncated : Nat → V3 ℚ := fun n =>
  [⟨0, 0, 0⟩, ⟨4, 0, 0⟩, ⟨4, 4, 0⟩, ⟨0, 4, 0⟩, ⟨1, 1, 2⟩, ⟨3, 1, 2⟩, ⟨3, 3, 2⟩, ⟨1, 3, 2⟩].getD n 0

/-- A case: a convex hexahedron which is no affine image of the cube. -/
theorem truncated_convex : ConvexHex truncated where
  plane := by decide +kernel
  inside := by decide +kernel

example : hexVol12 truncated / 12 = 56 / 3 := by decide +kernel

/-- **C14** is false for hexahedra with plane faces that are not convex: a prism over a concave quadrilateral. -/
theorem C14_H8_nonconvex_false : ∃ X : Nat → V3 ℚ, PlaneFaces X ∧ 0 < hexVol12 X ∧
    ∃ t ∈ pathH8TET4, vol6 (sub X t 0) (sub X t 1) (sub X t 2) (sub X t 3) < 0 := by
  refine ⟨fun n => [⟨0, 0, 0⟩, ⟨4, 0, 0⟩, ⟨1, 1, 0⟩, ⟨0, 4, 0⟩, ⟨0, 0, 1⟩, ⟨4, 0, 1⟩, ⟨1, 1, 1⟩, ⟨0, 4, 1⟩].getD n 0, ?_, ?_,
    [6, 5, 7, 2], by decide, ?_⟩
  · unfold PlaneFaces Coplanar4
    decide +kernel
  · decide +kernel
  · decide +kernel

end PM
