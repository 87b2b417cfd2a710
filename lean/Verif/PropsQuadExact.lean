import Verif.PropsMonoms
import Mathlib.Tactic.FieldSimp

/-!
# Exact accounts: local coordinates of quadrilaterals by monomials (C84)

`C84_Q4_exact` says which parallelograms have local coordinates at all, `C84_Q4_right_exact` for which quadrilaterals they are right.
-/

namespace PM

set_option linter.unusedSimpArgs false

section
variable {K : Type} [Field K]

/-- The point of a quadrilateral with the given local coordinates. -/
def quadAt (X : List (V3 K)) (ξ η : K) : V3 K := lincomb (Shp.shpQ4.map (PE.eval (⟨ξ, η, 0⟩ : V3 K))) X

/-- The matrix of the monomials of a parallelogram with the half sides `a` and `b` is regular exactly if neither the determinant nor the
permanent of the sides is zero. -/
theorem regular_Q4 [CharZero K] (A : Aff K) :
    Regular Mono.Q4 (imagePts lcQ4 A) ↔ (A.a.x * A.b.y - A.a.y * A.b.x) * (A.a.x * A.b.y + A.a.y * A.b.x) ≠ 0 := by
  have l1 : (imagePts lcQ4 A).length = 4 := rfl
  have e2 : ((2 : Int) : K) / 2 = 1 := by norm_num
  constructor
  · rintro ⟨C, hC⟩ h0
    rw [l1] at hC
    -- a polynomial that is zero at the corners
    have key : ∀ c : Nat → K, (∀ i < 4, ∑ k ∈ Finset.range 4, tab ((imagePts lcQ4 A).map Mono.Q4) i k * c k = 0) →
        ∀ j < 4, c j = 0 := by
      intro c hc j hj
      have : ∑ i ∈ Finset.range 4, tab C j i * ∑ k ∈ Finset.range 4, tab ((imagePts lcQ4 A).map Mono.Q4) i k * c k = c j := by
        simp_rw [Finset.mul_sum]
        rw [Finset.sum_comm]
        have h2 : ∀ k ∈ Finset.range 4, ∑ i ∈ Finset.range 4, tab C j i * (tab ((imagePts lcQ4 A).map Mono.Q4) i k * c k) =
            (if j = k then 1 else 0) * c k := by
          intro k hk
          rw [← hC.left j hj k (Finset.mem_range.1 hk), Finset.sum_mul]
          exact Finset.sum_congr rfl fun i _ => by ring
        rw [Finset.sum_congr rfl h2]
        simp [hj]
      rw [← this]
      exact Finset.sum_eq_zero fun i hi => by rw [hc i (Finset.mem_range.1 hi), mul_zero]
    have lin : ∀ c0 c1 c2 c3 : K, (∀ p ∈ imagePts lcQ4 A, c0 + c1 * p.x + c2 * p.y + c3 * (p.x * p.y) = 0) →
        c0 = 0 ∧ c1 = 0 ∧ c2 = 0 ∧ c3 = 0 := by
      intro c0 c1 c2 c3 h
      have := key (fun k => [c0, c1, c2, c3].getD k 0) (by
        intro i hi
        have hi' : i < (imagePts lcQ4 A).length := hi
        rw [← h _ (List.getElem_mem hi')]
        simp only [Finset.sum_range_succ, tab_map hi', List.getD_eq_getElem?_getD, List.getElem?_eq_getElem hi', Option.getD_some]
        simp [Mono.Q4]
        ring)
      exact ⟨this 0 (by decide), this 1 (by decide), this 2 (by decide), this 3 (by decide)⟩
    have app : ∀ p ∈ imagePts lcQ4 A, ∃ s t : K, s ^ 2 = 1 ∧ t ^ 2 = 1 ∧ p.x = A.o.x + s * A.a.x + t * A.b.x ∧
        p.y = A.o.y + s * A.a.y + t * A.b.y := by
      intro p hp
      simp only [imagePts, lcQ4, List.map_cons, List.map_nil, List.mem_cons, List.not_mem_nil, or_false] at hp
      rcases hp with rfl | rfl | rfl | rfl
      · exact ⟨-1, -1, by ring, by ring, by simp [Aff.app, half]; ring, by simp [Aff.app, half]; ring⟩
      · exact ⟨1, -1, by ring, by ring, by simp [Aff.app, half]; ring, by simp [Aff.app, half]; ring⟩
      · exact ⟨1, 1, by ring, by ring, by simp [Aff.app, half]; ring, by simp [Aff.app, half]; ring⟩
      · exact ⟨-1, 1, by ring, by ring, by simp [Aff.app, half]; ring, by simp [Aff.app, half]; ring⟩
    rcases mul_eq_zero.1 h0 with hd | hp
    · -- the corners are on a line
      have ha := lin (A.o.x * A.a.y - A.o.y * A.a.x) (-A.a.y) A.a.x 0 (by
        intro p hp
        obtain ⟨s, t, -, -, ex, ey⟩ := app p hp
        rw [ex, ey]
        linear_combination t * hd)
      have hb := lin (A.o.x * A.b.y - A.o.y * A.b.x) (-A.b.y) A.b.x 0 (by
        intro p hp
        obtain ⟨s, t, -, -, ex, ey⟩ := app p hp
        rw [ex, ey]
        linear_combination -s * hd)
      have := lin A.o.x (-1) 0 0 (by
        intro p hp
        obtain ⟨s, t, -, -, ex, ey⟩ := app p hp
        rw [ex, ey, ha.2.2.1, hb.2.2.1]
        ring)
      exact one_ne_zero (neg_eq_zero.1 this.2.1)
    · -- the product of the coordinates from the middle is the same at the corners
      have := lin (A.o.x * A.o.y - A.a.x * A.a.y - A.b.x * A.b.y) (-A.o.y) (-A.o.x) 1 (by
        intro p hp'
        obtain ⟨s, t, hs, ht, ex, ey⟩ := app p hp'
        rw [ex, ey]
        linear_combination A.a.x * A.a.y * hs + A.b.x * A.b.y * ht + s * t * hp)
      exact one_ne_zero this.2.2.2
  · intro h
    obtain ⟨hd, hp⟩ := mul_ne_zero_iff.1 h
    obtain ⟨d, hd⟩ : ∃ d, d * (A.a.x * A.b.y - A.a.y * A.b.x) = 1 := ⟨_, inv_mul_cancel₀ hd⟩
    obtain ⟨q, hq⟩ : ∃ q, q * (A.a.x * A.b.y + A.a.y * A.b.x) = 1 := ⟨_, inv_mul_cancel₀ hp⟩
    -- the coefficients of the functions that are one at one corner and zero at the others
    let c0 : K × K → K := fun s => (1 - s.1 * d * (A.b.y * A.o.x - A.b.x * A.o.y) + s.2 * d * (A.a.y * A.o.x - A.a.x * A.o.y) +
      s.1 * s.2 * q * (A.o.x * A.o.y - A.a.x * A.a.y - A.b.x * A.b.y)) / 4
    let c1 : K × K → K := fun s => (s.1 * d * A.b.y - s.2 * d * A.a.y - s.1 * s.2 * q * A.o.y) / 4
    let c2 : K × K → K := fun s => (-(s.1 * d * A.b.x) + s.2 * d * A.a.x - s.1 * s.2 * q * A.o.x) / 4
    let c3 : K × K → K := fun s => s.1 * s.2 * q / 4
    have key : ∀ s t u v : K, s ^ 2 = 1 → t ^ 2 = 1 → ∀ x y, x = A.o.x + s * A.a.x + t * A.b.x → y = A.o.y + s * A.a.y + t * A.b.y →
        c0 (u, v) + x * c1 (u, v) + y * c2 (u, v) + x * y * c3 (u, v) = (1 + s * u) * (1 + t * v) / 4 := by
      intro s t u v hs ht x y ex ey
      subst ex ey
      simp only [c0, c1, c2, c3]
      linear_combination (s * u + t * v) / 4 * hd + s * t * u * v / 4 * hq + u * v * q / 4 * (A.a.x * A.a.y * hs + A.b.x * A.b.y * ht)
    refine ⟨[[c0 (-1, -1), c0 (1, -1), c0 (1, 1), c0 (-1, 1)], [c1 (-1, -1), c1 (1, -1), c1 (1, 1), c1 (-1, 1)],
      [c2 (-1, -1), c2 (1, -1), c2 (1, 1), c2 (-1, 1)], [c3 (-1, -1), c3 (1, -1), c3 (1, 1), c3 (-1, 1)]], InvTab.of_right ?_⟩
    have hk : ∀ (m : V3 Int) (s t u v : K), s ^ 2 = 1 → t ^ 2 = 1 → (half m : V3 K) = ⟨s, t, 0⟩ →
        1 * c0 (u, v) + (A.app (half m)).x * c1 (u, v) + (A.app (half m)).y * c2 (u, v) + (A.app (half m)).x * (A.app (half m)).y * c3 (u, v) =
          (1 + s * u) * (1 + t * v) / 4 := by
      intro m s t u v hs ht e
      rw [e, one_mul]
      exact key s t u v hs ht _ _ (by simp [Aff.app]; ring) (by simp [Aff.app]; ring)
    have k0 := fun u v => hk ⟨-2, -2, 0⟩ (-1) (-1) u v (by ring) (by ring) (by ext <;> simp [half])
    have k1 := fun u v => hk ⟨2, -2, 0⟩ 1 (-1) u v (by ring) (by ring) (by ext <;> simp [half])
    have k2 := fun u v => hk ⟨2, 2, 0⟩ 1 1 u v (by ring) (by ring) (by ext <;> simp [half])
    have k3 := fun u v => hk ⟨-2, 2, 0⟩ (-1) 1 u v (by ring) (by ring) (by ext <;> simp [half])
    clear_value c0 c1 c2 c3
    intro i hi j hj
    rw [l1] at hi hj
    rw [l1]
    simp only [Finset.sum_range_succ, Finset.sum_range_zero, zero_add]
    interval_cases i
    · interval_cases j
      · exact (k0 _ _).trans (by norm_num)
      · exact (k0 _ _).trans (by norm_num)
      · exact (k0 _ _).trans (by norm_num)
      · exact (k0 _ _).trans (by norm_num)
    · interval_cases j
      · exact (k1 _ _).trans (by norm_num)
      · exact (k1 _ _).trans (by norm_num)
      · exact (k1 _ _).trans (by norm_num)
      · exact (k1 _ _).trans (by norm_num)
    · interval_cases j
      · exact (k2 _ _).trans (by norm_num)
      · exact (k2 _ _).trans (by norm_num)
      · exact (k2 _ _).trans (by norm_num)
      · exact (k2 _ _).trans (by norm_num)
    · interval_cases j
      · exact (k3 _ _).trans (by norm_num)
      · exact (k3 _ _).trans (by norm_num)
      · exact (k3 _ _).trans (by norm_num)
      · exact (k3 _ _).trans (by norm_num)

theorem bulk_isSome {f : V3 K → List K} {inv : List (List K) → Option (List (List K))} (hi : InvFn inv) (lc X : List (V3 K))
    (P : List (List K)) : (∃ res, Mono.globToLocBulk inv lc [X.map f] P = some res) ↔ Regular f X := by
  rw [Mono.globToLocBulk, List.mapM_cons]
  constructor
  · rintro ⟨res, h⟩
    cases hC : inv (X.map f) with
    | none => rw [hC] at h; cases h
    | some C => exact ⟨C, by simpa using hi.sound _ _ hC⟩
  · rintro ⟨C, hC⟩
    obtain ⟨C', h'⟩ := hi.complete (X.map f) C (by simpa using hC)
    rw [h']
    exact ⟨_, rfl⟩

/-- **C84** exact: parallelograms with the half sides `a` and `b` have local coordinates exactly if `a.x * b.y + a.y * b.x` is not
zero; then they are right at all points. Otherwise, as for squares that stand on a corner, there is no result. -/
theorem C84_Q4_exact [CharZero K] {inv : List (List K) → Option (List (List K))} (hi : InvFn inv) (A : Aff K) (hA : AdmPlane A)
    (pts : List (V3 K)) (hp : ∀ p ∈ pts, InPlane p) :
    ((∃ res, Mono.globToLocBulk inv (refPts lcQ4) [(imagePts lcQ4 A).map Mono.Q4] (pts.map Mono.Q4) = some res) ↔
      A.a.x * A.b.y + A.a.y * A.b.x ≠ 0) ∧
    ∀ res, Mono.globToLocBulk inv (refPts lcQ4) [(imagePts lcQ4 A).map Mono.Q4] (pts.map Mono.Q4) = some res →
      ∃ row, res = [row] ∧ List.Forall₂ (IsLoc InPlane A) pts row := by
  refine ⟨?_, fun res h => C84_affine.1 inv hi A hA pts hp res h⟩
  rw [bulk_isSome hi, regular_Q4]
  exact ⟨fun h => (mul_ne_zero_iff.1 h).2, mul_ne_zero hA.2.2.2⟩

/-- What it means that local coordinates are right for all points of a quadrilateral: comparing coefficients. -/
theorem bilinear_inverse [CharZero K] {x0 x1 x2 x3 y0 y1 y2 y3 c0 c1 c2 c3 d0 d1 d2 d3 : K}
    (hc : ∀ s t : K, c0 + c1 * (x0 + x1 * s + x2 * t + x3 * (s * t)) + c2 * (y0 + y1 * s + y2 * t + y3 * (s * t)) +
      c3 * ((x0 + x1 * s + x2 * t + x3 * (s * t)) * (y0 + y1 * s + y2 * t + y3 * (s * t))) = s)
    (hd : ∀ s t : K, d0 + d1 * (x0 + x1 * s + x2 * t + x3 * (s * t)) + d2 * (y0 + y1 * s + y2 * t + y3 * (s * t)) +
      d3 * ((x0 + x1 * s + x2 * t + x3 * (s * t)) * (y0 + y1 * s + y2 * t + y3 * (s * t))) = t) : x3 = 0 ∧ y3 = 0 := by
  have pp := hc 1 1
  have pm := hc 1 (-1)
  have mp := hc (-1) 1
  have mm := hc (-1) (-1)
  have oo := hc 0 0
  have po := hc 1 0
  have mo := hc (-1) 0
  have op := hc 0 1
  have om := hc 0 (-1)
  have pp' := hd 1 1
  have pm' := hd 1 (-1)
  have mp' := hd (-1) 1
  have mm' := hd (-1) (-1)
  have oo' := hd 0 0
  have po' := hd 1 0
  have mo' := hd (-1) 0
  have op' := hd 0 1
  have om' := hd 0 (-1)
  -- coefficients
  have a20 : c3 * (x1 * y1) = 0 := by linear_combination (po + mo - 2 * oo) / 2
  have a02 : c3 * (x2 * y2) = 0 := by linear_combination (op + om - 2 * oo) / 2
  have a22 : c3 * (x3 * y3) = 0 := by linear_combination (pp + pm + mp + mm - 2 * (po + mo + op + om) + 4 * oo) / 4
  have a21 : c3 * (x1 * y3 + x3 * y1) = 0 := by linear_combination (pp - pm + mp - mm - 2 * (op - om)) / 4
  have a12 : c3 * (x2 * y3 + x3 * y2) = 0 := by linear_combination (pp + pm - mp - mm - 2 * (po - mo)) / 4
  have a10 : (c1 + c3 * y0) * x1 + (c2 + c3 * x0) * y1 = 1 := by linear_combination (po - mo) / 2
  have a01 : (c1 + c3 * y0) * x2 + (c2 + c3 * x0) * y2 = 0 := by linear_combination (op - om) / 2
  have a11 : (c1 + c3 * y0) * x3 + (c2 + c3 * x0) * y3 + c3 * (x1 * y2 + x2 * y1) = 0 := by linear_combination (pp - pm - mp + mm) / 4
  have b20 : d3 * (x1 * y1) = 0 := by linear_combination (po' + mo' - 2 * oo') / 2
  have b02 : d3 * (x2 * y2) = 0 := by linear_combination (op' + om' - 2 * oo') / 2
  have b22 : d3 * (x3 * y3) = 0 := by linear_combination (pp' + pm' + mp' + mm' - 2 * (po' + mo' + op' + om') + 4 * oo') / 4
  have b21 : d3 * (x1 * y3 + x3 * y1) = 0 := by linear_combination (pp' - pm' + mp' - mm' - 2 * (op' - om')) / 4
  have b12 : d3 * (x2 * y3 + x3 * y2) = 0 := by linear_combination (pp' + pm' - mp' - mm' - 2 * (po' - mo')) / 4
  have b10 : (d1 + d3 * y0) * x1 + (d2 + d3 * x0) * y1 = 0 := by linear_combination (po' - mo') / 2
  have b01 : (d1 + d3 * y0) * x2 + (d2 + d3 * x0) * y2 = 1 := by linear_combination (op' - om') / 2
  have b11 : (d1 + d3 * y0) * x3 + (d2 + d3 * x0) * y3 + d3 * (x1 * y2 + x2 * y1) = 0 := by linear_combination (pp' - pm' - mp' + mm') / 4
  clear hc hd pp pm mp mm oo po mo op om pp' pm' mp' mm' oo' po' mo' op' om'
  generalize c1 + c3 * y0 = p at *
  generalize c2 + c3 * x0 = q at *
  generalize d1 + d3 * y0 = r at *
  generalize d2 + d3 * x0 = s at *
  have hdet : (p * s - q * r) * (x1 * y2 - x2 * y1) = 1 := by
    linear_combination (r * x2 + s * y2) * a10 + b01 - (r * x1 + s * y1) * a01
  have hx : x1 * y2 - x2 * y1 ≠ 0 := fun h => by rw [h, mul_zero] at hdet; exact zero_ne_one hdet
  have hps : p * s - q * r ≠ 0 := fun h => by rw [h, zero_mul] at hdet; exact zero_ne_one hdet
  have nonlin : ∀ e : K, e ≠ 0 → e * (x1 * y1) = 0 → e * (x2 * y2) = 0 → e * (x1 * y3 + x3 * y1) = 0 → e * (x2 * y3 + x3 * y2) = 0 →
      x3 = 0 ∧ y3 = 0 := by
    intro e he h1 h2 h3 h4
    have h1 := (mul_eq_zero.1 h1).resolve_left he
    have h2 := (mul_eq_zero.1 h2).resolve_left he
    have h3 := (mul_eq_zero.1 h3).resolve_left he
    have h4 := (mul_eq_zero.1 h4).resolve_left he
    rcases mul_eq_zero.1 h1 with z1 | z1 <;> rcases mul_eq_zero.1 h2 with z2 | z2
    · exact absurd (by rw [z1, z2]; ring) hx
    · have w1 : y1 ≠ 0 := fun h => hx (by rw [h, z1]; ring)
      have w2 : x2 ≠ 0 := fun h => hx (by rw [h, z1]; ring)
      rw [z1, zero_mul, zero_add] at h3
      rw [z2, mul_zero, add_zero] at h4
      exact ⟨(mul_eq_zero.1 h3).resolve_right w1, (mul_eq_zero.1 h4).resolve_left w2⟩
    · have w1 : x1 ≠ 0 := fun h => hx (by rw [h, z1]; ring)
      have w2 : y2 ≠ 0 := fun h => hx (by rw [h, z1]; ring)
      rw [z1, mul_zero, add_zero] at h3
      rw [z2, zero_mul, zero_add] at h4
      exact ⟨(mul_eq_zero.1 h4).resolve_right w2, (mul_eq_zero.1 h3).resolve_left w1⟩
    · exact absurd (by rw [z1, z2]; ring) hx
  by_cases h3 : c3 = 0
  · by_cases h4 : d3 = 0
    · rw [h3] at a11
      rw [h4] at b11
      constructor
      · have h : (p * s - q * r) * x3 = 0 := by linear_combination s * a11 - q * b11
        exact (mul_eq_zero.1 h).resolve_left hps
      · have h : (p * s - q * r) * y3 = 0 := by linear_combination p * b11 - r * a11
        exact (mul_eq_zero.1 h).resolve_left hps
    · exact nonlin d3 h4 b20 b02 b21 b12
  · exact nonlin c3 h3 a20 a02 a21 a12

theorem quadAt_eq [CharZero K] (a b c d : V3 K) (ξ η : K) :
    (quadAt [a, b, c, d] ξ η).x = (a.x + b.x + c.x + d.x) / 4 + (b.x + c.x - a.x - d.x) / 4 * ξ + (c.x + d.x - a.x - b.x) / 4 * η +
      (a.x + c.x - b.x - d.x) / 4 * (ξ * η) ∧
    (quadAt [a, b, c, d] ξ η).y = (a.y + b.y + c.y + d.y) / 4 + (b.y + c.y - a.y - d.y) / 4 * ξ + (c.y + d.y - a.y - b.y) / 4 * η +
      (a.y + c.y - b.y - d.y) / 4 * (ξ * η) ∧
    (quadAt [a, b, c, d] ξ η).z = (a.z + b.z + c.z + d.z) / 4 + (b.z + c.z - a.z - d.z) / 4 * ξ + (c.z + d.z - a.z - b.z) / 4 * η +
      (a.z + c.z - b.z - d.z) / 4 * (ξ * η) := by
  have e1 : (PE.eval (⟨ξ, η, 0⟩ : V3 K) (1 : PE)) = 1 := by show ((1 : ℚ) : K) = 1; simp
  have e4 : (PE.eval (⟨ξ, η, 0⟩ : V3 K) (0.25 : PE)) = 1 / 4 := by show (((0.25 : ℚ)) : K) = 1 / 4; norm_num
  have er : (PE.eval (⟨ξ, η, 0⟩ : V3 K) PE.r) = ξ := rfl
  have es : (PE.eval (⟨ξ, η, 0⟩ : V3 K) PE.s) = η := rfl
  refine ⟨?_, ?_, ?_⟩ <;>
    simp only [quadAt, Shp.shpQ4, lincomb, List.map_cons, List.map_nil, PE.eval_mul, PE.eval_add, PE.eval_sub, e1, e4, er, es, V3.add_x,
      V3.add_y, V3.add_z, V3.smul_x, V3.smul_y, V3.smul_z, V3.zero_x, V3.zero_y, V3.zero_z] <;> ring

/-- **C84** exact: the local coordinates of all points of a plane quadrilateral are found and right exactly if it is a parallelogram
with a regular matrix. -/
theorem C84_Q4_right_exact [CharZero K] {inv : List (List K) → Option (List (List K))} (hi : InvFn inv) {a b c d : V3 K}
    (ha : InPlane a) (hb : InPlane b) (hc : InPlane c) (hd : InPlane d) :
    (∀ ξ η : K, Mono.globToLocBulk inv (refPts lcQ4) [[a, b, c, d].map Mono.Q4] [Mono.Q4 (quadAt [a, b, c, d] ξ η)] =
      some [[⟨ξ, η, 0⟩]]) ↔ a + c = b + d ∧ Regular Mono.Q4 [a, b, c, d] := by
  constructor
  · intro h
    have hreg := (bulk_isSome hi _ _ _).1 ⟨_, h 0 0⟩
    refine ⟨?_, hreg⟩
    cases hC : inv ([a, b, c, d].map Mono.Q4) with
    | none =>
      have := h 0 0
      rw [Mono.globToLocBulk, List.mapM_cons, hC] at this
      cases this
    | some C =>
      have hl : ∀ ξ η : K, lincomb (Mono.shpAt C (Mono.Q4 (quadAt [a, b, c, d] ξ η))) (refPts lcQ4) = ⟨ξ, η, 0⟩ := by
        intro ξ η
        have := h ξ η
        rw [Mono.globToLocBulk, List.mapM_cons, hC] at this
        simpa using this
      have hcoef : ∀ p : V3 K, (lincomb (Mono.shpAt C (Mono.Q4 p)) (refPts lcQ4)).x =
            (Mono.at2 C 0 1 + Mono.at2 C 0 2 - Mono.at2 C 0 0 - Mono.at2 C 0 3) + (Mono.at2 C 1 1 + Mono.at2 C 1 2 - Mono.at2 C 1 0 -
              Mono.at2 C 1 3) * p.x + (Mono.at2 C 2 1 + Mono.at2 C 2 2 - Mono.at2 C 2 0 - Mono.at2 C 2 3) * p.y +
              (Mono.at2 C 3 1 + Mono.at2 C 3 2 - Mono.at2 C 3 0 - Mono.at2 C 3 3) * (p.x * p.y) ∧
          (lincomb (Mono.shpAt C (Mono.Q4 p)) (refPts lcQ4)).y =
            (Mono.at2 C 0 2 + Mono.at2 C 0 3 - Mono.at2 C 0 0 - Mono.at2 C 0 1) + (Mono.at2 C 1 2 + Mono.at2 C 1 3 - Mono.at2 C 1 0 -
              Mono.at2 C 1 1) * p.x + (Mono.at2 C 2 2 + Mono.at2 C 2 3 - Mono.at2 C 2 0 - Mono.at2 C 2 1) * p.y +
              (Mono.at2 C 3 2 + Mono.at2 C 3 3 - Mono.at2 C 3 0 - Mono.at2 C 3 1) * (p.x * p.y) := by
        intro p
        constructor <;>
          simp [Mono.shpAt, Mono.Q4, refPts, lcQ4, half, lincomb, List.range_succ] <;> ring
      obtain ⟨hx, hy⟩ := bilinear_inverse (x0 := (a.x + b.x + c.x + d.x) / 4) (x1 := (b.x + c.x - a.x - d.x) / 4)
        (x2 := (c.x + d.x - a.x - b.x) / 4) (x3 := (a.x + c.x - b.x - d.x) / 4) (y0 := (a.y + b.y + c.y + d.y) / 4)
        (y1 := (b.y + c.y - a.y - d.y) / 4) (y2 := (c.y + d.y - a.y - b.y) / 4) (y3 := (a.y + c.y - b.y - d.y) / 4)
        (fun s t => by
          have h1 := (hcoef (quadAt [a, b, c, d] s t)).1
          rw [hl, (quadAt_eq a b c d s t).1, (quadAt_eq a b c d s t).2.1] at h1
          exact h1.symm)
        (fun s t => by
          have h1 := (hcoef (quadAt [a, b, c, d] s t)).2
          rw [hl, (quadAt_eq a b c d s t).1, (quadAt_eq a b c d s t).2.1] at h1
          exact h1.symm)
      ext
      · simp only [V3.add_x]
        linear_combination 4 * hx
      · simp only [V3.add_y]
        linear_combination 4 * hy
      · simp only [V3.add_z, show a.z = 0 from ha, show b.z = 0 from hb, show c.z = 0 from hc, show d.z = 0 from hd]
  · rintro ⟨he, hreg⟩ ξ η
    have ex : a.x + c.x = b.x + d.x := by simpa using congrArg V3.x he
    have ey : a.y + c.y = b.y + d.y := by simpa using congrArg V3.y he
    have ha : a.z = 0 := ha
    have hb : b.z = 0 := hb
    have hc : c.z = 0 := hc
    have hd : d.z = 0 := hd
    let A : Aff K := ⟨⟨(a.x + c.x) / 2, (a.y + c.y) / 2, 0⟩, ⟨(b.x - a.x) / 2, (b.y - a.y) / 2, 0⟩, ⟨(d.x - a.x) / 2, (d.y - a.y) / 2, 0⟩, 0⟩
    have hA : imagePts lcQ4 A = [a, b, c, d] := by
      simp only [imagePts, lcQ4, List.map_cons, List.map_nil, List.cons.injEq, and_true]
      refine ⟨?_, ?_, ?_, ?_⟩ <;> ext <;> simp [A, Aff.app, half, ha, hb, hc, hd]
      · linear_combination ex / 2
      · linear_combination ey / 2
      · linear_combination ex / 2
      · linear_combination ey / 2
      · linear_combination -ex / 2
      · linear_combination -ey / 2
      · linear_combination ex / 2
      · linear_combination ey / 2
    have hr := hreg
    rw [← hA, regular_Q4] at hr
    have hAdm : AdmPlane A := ⟨rfl, rfl, rfl, (mul_ne_zero_iff.1 hr).1⟩
    have hq : quadAt [a, b, c, d] ξ η = A.app ⟨ξ, η, 0⟩ := by
      obtain ⟨q1, q2, q3⟩ := quadAt_eq a b c d ξ η
      ext
      · rw [q1]
        simp [A, Aff.app]
        linear_combination (-1 / 4 + ξ / 4 + η / 4 + ξ * η / 4) * ex
      · rw [q2]
        simp [A, Aff.app]
        linear_combination (-1 / 4 + ξ / 4 + η / 4 + ξ * η / 4) * ey
      · rw [q3, ha, hb, hc, hd]
        simp [A, Aff.app]
    have hin : InPlane (A.app ⟨ξ, η, 0⟩) := by simp [InPlane, A, Aff.app]
    obtain ⟨res, hres⟩ := (bulk_isSome hi (refPts lcQ4) [a, b, c, d] [Mono.Q4 (quadAt [a, b, c, d] ξ η)]).2 hreg
    have h1 := hres
    rw [← hA] at h1
    rw [hA, hq] at h1
    rw [← hA] at h1
    obtain ⟨row, rfl, hf⟩ := C84_affine.1 inv hi A hAdm [A.app ⟨ξ, η, 0⟩] (by simpa using hin) res h1
    cases hf with
    | cons h2 h3 =>
      cases h3
      rw [hres, ← h2.2.2 ⟨ξ, η, 0⟩ rfl rfl]

/-- A parallelogram that is no rectangle: the theorem applies. -/
example : Regular Mono.Q4 (imagePts lcQ4 (⟨0, ⟨2, 1, 0⟩, ⟨1, 2, 0⟩, 0⟩ : Aff ℚ)) := by
  rw [regular_Q4]
  norm_num

end

end PM
