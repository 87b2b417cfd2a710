import Verif.Cells

/-!
# Property C13 (splitting preserves areas and volumes), and C14 for general convex quadrilaterals

Coordinates are arbitrary: `X n` is the position of local node `n`. Areas of plane cells are measured with a
direction `c` (for cells in the plane `z = 0` take `c = (0, 0, 1)`).
-/

namespace PM
open V3

section
variable {K : Type} [Field K] [LinearOrder K] [IsStrictOrderedRing K]

/-! ## specification -/

/-- Twice the signed area of a triangle. -/
def area2 (c p q r : V3 K) : K := det3 (q - p) (r - p) c

/-- Twice the signed area of a quadrilateral, by its diagonals. -/
def quadArea2 (c p q r s : V3 K) : K := det3 (r - p) (s - q) c

/-- Midpoint of two points. -/
def mid (p q : V3 K) : V3 K := (1 / 2 : K) • (p + q)

/-- Mean of four points. -/
def mid4 (p q r s : V3 K) : V3 K := (1 / 4 : K) • (p + q + (r + s))

/-- Twelve times the volume between the origin and a triangle. -/
def flux3 (a b c : V3 K) : K := 2 * det3 a b c

/-- Twelve times the volume between the origin and the bilinear surface through the four points (mean of the
two ways to split it into triangles). -/
def flux4 (a b c d : V3 K) : K := det3 a b c + det3 a c d + det3 a b d + det3 b c d

/-- Twelve times the volume of a hexahedron with bilinear faces. -/
def hexVol12 (X : Nat → V3 K) : K :=
  flux4 (X 0) (X 4) (X 7) (X 3) + flux4 (X 1) (X 2) (X 6) (X 5) + flux4 (X 0) (X 1) (X 5) (X 4) +
  flux4 (X 2) (X 3) (X 7) (X 6) + flux4 (X 0) (X 3) (X 2) (X 1) + flux4 (X 4) (X 5) (X 6) (X 7)

/-- Twelve times the volume of a wedge with bilinear lateral faces. -/
def wedgeVol12 (X : Nat → V3 K) : K :=
  flux3 (X 0) (X 2) (X 1) + flux3 (X 3) (X 4) (X 5) + flux4 (X 0) (X 1) (X 4) (X 3) +
  flux4 (X 1) (X 2) (X 5) (X 4) + flux4 (X 2) (X 0) (X 3) (X 5)

/-- Coordinates of a piece. -/
def sub (X : Nat → V3 K) (piece : List Nat) : Nat → V3 K := fun n => X (piece.getD n 0)

/-- Sum of the (doubled) areas of triangles. -/
def triSum (c : V3 K) (X : Nat → V3 K) (path : List (List Nat)) : K :=
  (path.map fun t => area2 c (sub X t 0) (sub X t 1) (sub X t 2)).sum

def quadSum (c : V3 K) (X : Nat → V3 K) (path : List (List Nat)) : K :=
  (path.map fun t => quadArea2 c (sub X t 0) (sub X t 1) (sub X t 2) (sub X t 3)).sum

def tetSum (X : Nat → V3 K) (path : List (List Nat)) : K :=
  (path.map fun t => vol6 (sub X t 0) (sub X t 1) (sub X t 2) (sub X t 3)).sum

/-! ## sanity of the specification -/

set_option linter.unusedSectionVars false

/-- The volume of an affine hexahedron is that of the spanned parallelepiped. -/
theorem hexVol12_affine (A : Aff K) : hexVol12 (fun i => A.app (half (lcH8.getD i 0))) = 12 * (8 * A.det) := by
  simp [hexVol12, flux4, det3, Aff.app, Aff.det, half, lcH8]; ring

theorem wedgeVol12_affine (A : Aff K) : wedgeVol12 (fun i => A.app (half (lcW6.getD i 0))) = 12 * A.det := by
  simp [wedgeVol12, flux4, flux3, det3, Aff.app, Aff.det, half, lcW6]; ring

theorem hexVol12_translate (X : Nat → V3 K) (v : V3 K) : hexVol12 (fun i => X i + v) = hexVol12 X := by
  simp [hexVol12, flux4, det3]; ring

/-! ## C13, plane cells -/

macro "area_tac" : tactic => `(tactic| (simp [triSum, quadSum, area2, quadArea2, sub, det3]; try ring))

/-- **C13** `Q4_to_T3`: any quadrilateral. -/
theorem C13_Q4_to_T3 (c : V3 K) (X : Nat → V3 K) :
    triSum c X pathQ4T3 = quadArea2 c (X 0) (X 1) (X 2) (X 3) := by
  simp [pathQ4T3]; area_tac

/-- **C13** `Q4_to_T3(path="grid")`: any cell numbered as in a grid. -/
theorem C13_Q4_to_T3_grid (c : V3 K) (X : Nat → V3 K) :
    triSum c X pathQ4T3Grid = quadArea2 c (X 0) (X 2) (X 3) (X 1) := by
  simp [pathQ4T3Grid]; area_tac

/-- **C13** `T6_to_T3`: straight-sided triangles. -/
theorem C13_T6_to_T3 (c : V3 K) (X : Nat → V3 K) (h3 : X 3 = mid (X 0) (X 1)) (h4 : X 4 = mid (X 1) (X 2))
    (h5 : X 5 = mid (X 2) (X 0)) : triSum c X pathT6T3 = area2 c (X 0) (X 1) (X 2) := by
  simp [pathT6T3, triSum, area2, sub, h3, h4, h5, mid, det3]; ring

/-- The mid-side nodes of a straight-sided quadrilateral. -/
structure Straight8 (X : Nat → V3 K) : Prop where
  h4 : X 4 = mid (X 0) (X 1)
  h5 : X 5 = mid (X 1) (X 2)
  h6 : X 6 = mid (X 2) (X 3)
  h7 : X 7 = mid (X 3) (X 0)

/-- **C13** `Q8_to_T3`: straight-sided 8-noded quadrilaterals. -/
theorem C13_Q8_to_T3 (c : V3 K) (X : Nat → V3 K) (h : Straight8 X) :
    triSum c X pathQ8T3 = quadArea2 c (X 0) (X 1) (X 2) (X 3) := by
  obtain ⟨h4, h5, h6, h7⟩ := h
  simp [pathQ8T3, triSum, quadArea2, area2, sub, h4, h5, h6, h7, mid, det3]; ring

/-- **C13** `Q9_to_Q4`: straight sides, the central node anywhere. -/
theorem C13_Q9_to_Q4 (c : V3 K) (X : Nat → V3 K) (h : Straight8 X) :
    quadSum c X pathQ9Q4 = quadArea2 c (X 0) (X 1) (X 2) (X 3) := by
  obtain ⟨h4, h5, h6, h7⟩ := h
  simp [pathQ9Q4, quadSum, quadArea2, sub, h4, h5, h6, h7, mid, det3]; ring

/-- **C13** the triangles of a 9-noded quadrilateral (`trimap`, and `Q9_to_Q4` followed by `Q4_to_T3`). -/
theorem C13_Q9_trimap (c : V3 K) (X : Nat → V3 K) (h : Straight8 X) :
    triSum c X trimapQ9 = quadArea2 c (X 0) (X 1) (X 2) (X 3) ∧
    composeTrmap pathQ9Q4 pathQ4T3 = some trimapQ9 := by
  refine ⟨?_, by decide⟩
  obtain ⟨h4, h5, h6, h7⟩ := h
  simp [trimapQ9, triSum, quadArea2, area2, sub, h4, h5, h6, h7, mid, det3]; ring

/-! ## C13, solid cells -/

/-- The four points are coplanar. -/
def Coplanar4 (a b c d : V3 K) : Prop := vol6 a b c d = 0

/-- All faces of the hexahedron are plane. -/
def PlaneFaces (X : Nat → V3 K) : Prop :=
  Coplanar4 (X 0) (X 4) (X 7) (X 3) ∧ Coplanar4 (X 1) (X 2) (X 6) (X 5) ∧ Coplanar4 (X 0) (X 1) (X 5) (X 4) ∧
  Coplanar4 (X 2) (X 3) (X 7) (X 6) ∧ Coplanar4 (X 0) (X 3) (X 2) (X 1) ∧ Coplanar4 (X 4) (X 5) (X 6) (X 7)

/-- **C13** `H8_to_TET4` (and the corners of `H27_to_TET10`): hexahedra with plane faces. -/
theorem C13_H8_to_TET4 (X : Nat → V3 K) (h : PlaneFaces X) : 2 * tetSum X pathH8TET4 = hexVol12 X := by
  obtain ⟨h1, h2, h3, h4, h5, h6⟩ := h
  simp only [Coplanar4, vol6, det3, sub_x, sub_y, sub_z] at h1 h2 h3 h4 h5 h6
  simp [pathH8TET4, tetSum, vol6, sub, det3, hexVol12, flux4]
  linear_combination (-h1 + h2 - h3 - h4 - h5 + h6)

/-- **C13** the corners of the tetrahedra of `H27_to_TET10` are those of `H8_to_TET4`. -/
theorem C13_H27_to_TET10 : pathH27TET10.map (List.take 4) = pathH8TET4 := by decide

/-- The nodes of a straight-sided (trilinear) 27-noded hexahedron. -/
structure Straight27 (X : Nat → V3 K) : Prop where
  h8 : X 8 = mid (X 0) (X 1)
  h9 : X 9 = mid (X 1) (X 2)
  h10 : X 10 = mid (X 2) (X 3)
  h11 : X 11 = mid (X 3) (X 0)
  h12 : X 12 = mid (X 4) (X 5)
  h13 : X 13 = mid (X 5) (X 6)
  h14 : X 14 = mid (X 6) (X 7)
  h15 : X 15 = mid (X 7) (X 4)
  h16 : X 16 = mid (X 0) (X 4)
  h17 : X 17 = mid (X 1) (X 5)
  h18 : X 18 = mid (X 2) (X 6)
  h19 : X 19 = mid (X 3) (X 7)
  h20 : X 20 = mid4 (X 0) (X 4) (X 7) (X 3)
  h21 : X 21 = mid4 (X 1) (X 2) (X 6) (X 5)
  h22 : X 22 = mid4 (X 0) (X 1) (X 5) (X 4)
  h23 : X 23 = mid4 (X 2) (X 3) (X 7) (X 6)
  h24 : X 24 = mid4 (X 0) (X 3) (X 2) (X 1)
  h25 : X 25 = mid4 (X 4) (X 5) (X 6) (X 7)

theorem flux4_rot (a b c d : V3 K) : flux4 b c d a = flux4 a b c d := by simp [flux4, det3]; ring
theorem flux4_rev (a b c d : V3 K) : flux4 d c b a = - flux4 a b c d := by simp [flux4, det3]; ring

/-- A bilinear surface is the union of its four quarters. -/
theorem flux4_quarters (a b c d : V3 K) :
    flux4 a (mid a b) (mid4 a b c d) (mid d a) + flux4 (mid a b) b (mid b c) (mid4 a b c d) +
    flux4 (mid4 a b c d) (mid b c) c (mid c d) + flux4 (mid d a) (mid4 a b c d) (mid c d) d = flux4 a b c d := by
  simp [flux4, det3, mid, mid4]; ring

/-- A triangle is the union of its four quarters. -/
theorem flux3_quarters (a b c : V3 K) :
    flux3 a (mid a b) (mid c a) + flux3 (mid a b) b (mid b c) + flux3 (mid c a) (mid b c) c +
    flux3 (mid c a) (mid a b) (mid b c) = flux3 a b c := by
  simp [flux3, det3, mid]; ring

theorem mid_comm (a b : V3 K) : mid a b = mid b a := by ext <;> simp [mid] <;> ring
theorem mid4_rot (a b c d : V3 K) : mid4 b c d a = mid4 a b c d := by ext <;> simp [mid4] <;> ring
theorem mid4_rev (a b c d : V3 K) : mid4 d c b a = mid4 a b c d := by ext <;> simp [mid4] <;> ring

/-- Interior faces of the eight pieces cancel (the central node may be anywhere). -/
theorem hex_pieces_boundary (X : Nat → V3 K) :
    (pathH27H8.map fun t => hexVol12 (sub X t)).sum =
      (flux4 (X 0) (X 16) (X 20) (X 11) + flux4 (X 16) (X 4) (X 15) (X 20) + flux4 (X 20) (X 15) (X 7) (X 19) +
        flux4 (X 11) (X 20) (X 19) (X 3)) +
      (flux4 (X 1) (X 9) (X 21) (X 17) + flux4 (X 9) (X 2) (X 18) (X 21) + flux4 (X 21) (X 18) (X 6) (X 13) +
        flux4 (X 17) (X 21) (X 13) (X 5)) +
      (flux4 (X 0) (X 8) (X 22) (X 16) + flux4 (X 8) (X 1) (X 17) (X 22) + flux4 (X 22) (X 17) (X 5) (X 12) +
        flux4 (X 16) (X 22) (X 12) (X 4)) +
      (flux4 (X 2) (X 10) (X 23) (X 18) + flux4 (X 10) (X 3) (X 19) (X 23) + flux4 (X 23) (X 19) (X 7) (X 14) +
        flux4 (X 18) (X 23) (X 14) (X 6)) +
      (flux4 (X 0) (X 11) (X 24) (X 8) + flux4 (X 11) (X 3) (X 10) (X 24) + flux4 (X 24) (X 10) (X 2) (X 9) +
        flux4 (X 8) (X 24) (X 9) (X 1)) +
      (flux4 (X 4) (X 12) (X 25) (X 15) + flux4 (X 12) (X 5) (X 13) (X 25) + flux4 (X 25) (X 13) (X 6) (X 14) +
        flux4 (X 15) (X 25) (X 14) (X 7)) := by
  simp only [pathH27H8, List.map_cons, List.map_nil, List.sum_cons, List.sum_nil, hexVol12, sub, List.getD_cons_zero,
    List.getD_cons_succ]
  simp only [flux4, det3]
  ring

/-- **C13** `H27_to_H8`: any trilinear hexahedron (the central node may be anywhere). -/
theorem C13_H27_to_H8 (X : Nat → V3 K) (h : Straight27 X) :
    (pathH27H8.map fun t => hexVol12 (sub X t)).sum = hexVol12 X := by
  rw [hex_pieces_boundary]
  unfold hexVol12
  rw [← flux4_quarters (X 0) (X 4) (X 7) (X 3), ← flux4_quarters (X 1) (X 2) (X 6) (X 5),
    ← flux4_quarters (X 0) (X 1) (X 5) (X 4), ← flux4_quarters (X 2) (X 3) (X 7) (X 6),
    ← flux4_quarters (X 0) (X 3) (X 2) (X 1), ← flux4_quarters (X 4) (X 5) (X 6) (X 7)]
  simp only [h.h8, h.h9, h.h10, h.h11, h.h12, h.h13, h.h14, h.h15, h.h16, h.h17, h.h18, h.h19, h.h20, h.h21, h.h22,
    h.h23, h.h24, h.h25]
  simp only [mid_comm (X 7) (X 4), mid_comm (X 7) (X 3), mid_comm (X 6) (X 5), mid_comm (X 5) (X 4),
    mid_comm (X 4) (X 0), mid_comm (X 5) (X 1), mid_comm (X 6) (X 2), mid_comm (X 7) (X 6), mid_comm (X 3) (X 2),
    mid_comm (X 2) (X 1), mid_comm (X 1) (X 0), mid_comm (X 3) (X 0)]

/-- The nodes of a straight-sided 18-noded wedge. -/
structure Straight18 (X : Nat → V3 K) : Prop where
  h6 : X 6 = mid (X 0) (X 1)
  h7 : X 7 = mid (X 1) (X 2)
  h8 : X 8 = mid (X 2) (X 0)
  h9 : X 9 = mid (X 3) (X 4)
  h10 : X 10 = mid (X 4) (X 5)
  h11 : X 11 = mid (X 5) (X 3)
  h12 : X 12 = mid (X 0) (X 3)
  h13 : X 13 = mid (X 1) (X 4)
  h14 : X 14 = mid (X 2) (X 5)
  h15 : X 15 = mid4 (X 0) (X 1) (X 4) (X 3)
  h16 : X 16 = mid4 (X 1) (X 2) (X 5) (X 4)
  h17 : X 17 = mid4 (X 2) (X 0) (X 3) (X 5)

theorem wedge_pieces_boundary (X : Nat → V3 K) :
    (pathW18W6.map fun t => wedgeVol12 (sub X t)).sum =
      (flux3 (X 0) (X 8) (X 6) + flux3 (X 8) (X 2) (X 7) + flux3 (X 6) (X 7) (X 1) + flux3 (X 6) (X 8) (X 7)) +
      (flux3 (X 3) (X 9) (X 11) + flux3 (X 9) (X 4) (X 10) + flux3 (X 11) (X 10) (X 5) + flux3 (X 11) (X 9) (X 10)) +
      (flux4 (X 0) (X 6) (X 15) (X 12) + flux4 (X 6) (X 1) (X 13) (X 15) + flux4 (X 15) (X 13) (X 4) (X 9) +
        flux4 (X 12) (X 15) (X 9) (X 3)) +
      (flux4 (X 1) (X 7) (X 16) (X 13) + flux4 (X 7) (X 2) (X 14) (X 16) + flux4 (X 16) (X 14) (X 5) (X 10) +
        flux4 (X 13) (X 16) (X 10) (X 4)) +
      (flux4 (X 2) (X 8) (X 17) (X 14) + flux4 (X 8) (X 0) (X 12) (X 17) + flux4 (X 17) (X 12) (X 3) (X 11) +
        flux4 (X 14) (X 17) (X 11) (X 5)) := by
  simp only [pathW18W6, List.map_cons, List.map_nil, List.sum_cons, List.sum_nil, wedgeVol12, sub,
    List.getD_cons_zero, List.getD_cons_succ]
  simp only [flux4, flux3, det3]
  ring

/-- **C13** `W18_to_W6`: any straight-sided 18-noded wedge. -/
theorem C13_W18_to_W6 (X : Nat → V3 K) (h : Straight18 X) :
    (pathW18W6.map fun t => wedgeVol12 (sub X t)).sum = wedgeVol12 X := by
  rw [wedge_pieces_boundary]
  unfold wedgeVol12
  rw [← flux3_quarters (X 0) (X 2) (X 1), ← flux3_quarters (X 3) (X 4) (X 5),
    ← flux4_quarters (X 0) (X 1) (X 4) (X 3), ← flux4_quarters (X 1) (X 2) (X 5) (X 4),
    ← flux4_quarters (X 2) (X 0) (X 3) (X 5)]
  simp only [h.h6, h.h7, h.h8, h.h9, h.h10, h.h11, h.h12, h.h13, h.h14, h.h15, h.h16, h.h17]
  simp only [mid_comm (X 1) (X 0), mid_comm (X 2) (X 1), mid_comm (X 0) (X 2), mid_comm (X 4) (X 3),
    mid_comm (X 5) (X 4), mid_comm (X 3) (X 5), mid_comm (X 3) (X 0), mid_comm (X 4) (X 1), mid_comm (X 5) (X 2)]

/-- **C13** `W6_to_TET4` on affine wedges. Missing: other wedges with plane faces, for which the claim fails
(`C13_W6_to_TET4_false`). The agreement for affine wedges is no evidence that the pieces tile the wedge: they do
not (`C14_W6_to_TET4_false`). -/
theorem C13_W6_to_TET4_partial (A : Aff K) :
    2 * tetSum (fun i => A.app (half (lcW6.getD i 0))) pathW6TET4 =
      wedgeVol12 (fun i => A.app (half (lcW6.getD i 0))) := by
  rw [wedgeVol12_affine]
  simp [pathW6TET4, tetSum, sub, vol6, det3, Aff.app, Aff.det, half, lcW6]; ring

/-- A right prism under a sloping top. -/
def slopedWedge : Nat → V3 K
  | 0 => ⟨0, 0, 0⟩
  | 1 => ⟨1, 0, 0⟩
  | 2 => ⟨0, 1, 0⟩
  | 3 => ⟨0, 0, 1⟩
  | 4 => ⟨1, 0, 1⟩
  | _ => ⟨0, 1, 2⟩

/-- **C13** (negation) a wedge with plane faces (a right prism under a sloping top) whose tetrahedra have a
different total volume. -/
theorem C13_W6_to_TET4_false :
    ∃ X : Nat → V3 K, Coplanar4 (X 0) (X 1) (X 4) (X 3) ∧ Coplanar4 (X 1) (X 2) (X 5) (X 4) ∧
      Coplanar4 (X 2) (X 0) (X 3) (X 5) ∧ 0 < wedgeVol12 X ∧ 2 * tetSum X pathW6TET4 ≠ wedgeVol12 X := by
  refine ⟨slopedWedge, ?_, ?_, ?_, ?_, ?_⟩
  · norm_num [Coplanar4, vol6, det3, slopedWedge]
  · norm_num [Coplanar4, vol6, det3, slopedWedge]
  · norm_num [Coplanar4, vol6, det3, slopedWedge]
  · norm_num [wedgeVol12, flux3, flux4, det3, slopedWedge]
  · norm_num [wedgeVol12, tetSum, pathW6TET4, sub, vol6, flux3, flux4, det3, slopedWedge]

/-! ## C14 for general convex quadrilaterals -/

/-- The corners of a quadrilateral all turn the same way. -/
def ConvexQuad (c : V3 K) (X : Nat → V3 K) : Prop :=
  0 < area2 c (X 0) (X 1) (X 2) ∧ 0 < area2 c (X 1) (X 2) (X 3) ∧ 0 < area2 c (X 2) (X 3) (X 0) ∧
    0 < area2 c (X 3) (X 0) (X 1)

/-- **C14** both triangles of `Q4_to_T3` are positively oriented for every convex quadrilateral. -/
theorem C14_Q4_to_T3_convex (c : V3 K) (X : Nat → V3 K) (h : ConvexQuad c X) :
    ∀ t ∈ pathQ4T3, 0 < area2 c (sub X t 0) (sub X t 1) (sub X t 2) := by
  obtain ⟨h0, h1, h2, h3⟩ := h
  intro t ht
  simp only [pathQ4T3, List.mem_cons, List.not_mem_nil, or_false] at ht
  rcases ht with rfl | rfl
  · simpa [sub] using h0
  · have : area2 c (X 0) (X 2) (X 3) = area2 c (X 2) (X 3) (X 0) := by simp [area2, det3]; ring
    simpa [sub, this] using h2

/-- A quadrilateral with a reentrant corner at node `1`. -/
def arrowQuad : Nat → V3 K
  | 0 => ⟨0, 0, 0⟩
  | 1 => ⟨1, 1, 0⟩
  | 2 => ⟨4, 0, 0⟩
  | _ => ⟨1, 4, 0⟩

/-- **C14** convexity is needed: for an arrow-shaped quadrilateral of positive area one triangle of `Q4_to_T3` is
inverted. -/
theorem C14_Q4_to_T3_nonconvex_false :
    ∃ X : Nat → V3 K, 0 < quadArea2 ⟨0, 0, 1⟩ (X 0) (X 1) (X 2) (X 3) ∧
      ∃ t ∈ pathQ4T3, area2 ⟨0, 0, 1⟩ (sub X t 0) (sub X t 1) (sub X t 2) < 0 := by
  refine ⟨arrowQuad, ?_, [0, 1, 2], by decide, ?_⟩
  · norm_num [quadArea2, det3, arrowQuad]
  · norm_num [area2, det3, arrowQuad, sub]

example : ConvexQuad (K := ℚ) ⟨0, 0, 1⟩ (fun i => ([⟨0, 0, 0⟩, ⟨3, 0, 0⟩, ⟨2, 2, 0⟩, ⟨0, 1, 0⟩] : List (V3 ℚ)).getD i 0) := by
  norm_num [ConvexQuad, area2, det3]

end
end PM
