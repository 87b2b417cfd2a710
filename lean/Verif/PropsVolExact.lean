import Verif.PropsVolW

/-!
# Exact accounts: areas of `T6` in space and volumes of `W6` (C38)
-/

namespace PM

open V3

/-- **C38** exact: the area of a six-noded triangle with straight sides is the area of the triangle exactly if the triangle is parallel to
the plane of the first two coordinates and counterclockwise, or has no area. (The result is the signed area as seen along the third
axis.) -/
theorem C38_T6_exact (p q r : V3 ℝ) (α β γ : ℝ) (m1 m2 m3 : V3 ℝ) (h1 : m1 = p + α • (q - p)) (h2 : m2 = q + β • (r - q))
    (h3 : m3 = r + γ • (p - r)) :
    areaQ Shp.dshpT6 gaussTri3a [p, q, r, m1, m2, m3] =
        Real.sqrt (dot (cross (q - p) (r - p)) (cross (q - p) (r - p))) / 2 ↔
      (cross (q - p) (r - p) = 0 ∨ p.z = q.z ∧ q.z = r.z ∧ 0 < area2 ⟨0, 0, 1⟩ p q r) := by
  have h := C38_T6 p q r α β γ m1 m2 m3 h1 h2 h3
  have hz : area2 ⟨0, 0, 1⟩ p q r = (cross (q - p) (r - p)).z := by simp [area2, det3, cross]
  have hu1 : (q - p).x * (cross (q - p) (r - p)).x + (q - p).y * (cross (q - p) (r - p)).y + (q - p).z * (cross (q - p) (r - p)).z = 0 := by
    simp only [cross]; ring
  have hu2 : (r - p).x * (cross (q - p) (r - p)).x + (r - p).y * (cross (q - p) (r - p)).y + (r - p).z * (cross (q - p) (r - p)).z = 0 := by
    simp only [cross]; ring
  have hfx : p.z = q.z → q.z = r.z → (cross (q - p) (r - p)).x = 0 ∧ (cross (q - p) (r - p)).y = 0 := by
    intro a b
    simp [cross, a, b]
  rw [hz] at h ⊢
  generalize cross (q - p) (r - p) = n at *
  have he : (areaQ Shp.dshpT6 gaussTri3a [p, q, r, m1, m2, m3] = Real.sqrt (dot n n) / 2) ↔ Real.sqrt (dot n n) = n.z := by
    constructor <;> intro e <;> linarith
  have hn : 0 ≤ dot n n := by simp only [dot]; nlinarith [mul_self_nonneg n.x, mul_self_nonneg n.y, mul_self_nonneg n.z]
  rw [he]
  constructor
  · intro e
    have hz0 : 0 ≤ n.z := e ▸ Real.sqrt_nonneg _
    have hs := Real.mul_self_sqrt hn
    rw [e] at hs
    simp only [dot] at hs
    have hx : n.x = 0 := by nlinarith [mul_self_nonneg n.x, mul_self_nonneg n.y]
    have hy : n.y = 0 := by nlinarith [mul_self_nonneg n.x, mul_self_nonneg n.y]
    rcases hz0.eq_or_lt with h0 | h0
    · left
      ext
      · exact hx
      · exact hy
      · exact h0.symm
    · right
      rw [hx, hy] at hu1 hu2
      have hu1 : (q.z - p.z) * n.z = 0 := by simpa using hu1
      have hu2 : (r.z - p.z) * n.z = 0 := by simpa using hu2
      have a1 := (mul_eq_zero.1 hu1).resolve_right h0.ne'
      have a2 := (mul_eq_zero.1 hu2).resolve_right h0.ne'
      exact ⟨by linarith, by linarith, h0⟩
  · rintro (rfl | ⟨a, b, c⟩)
    · simp [dot]
    · obtain ⟨hx, hy⟩ := hfx a b
      rw [dot, hx, hy]
      simpa using Real.sqrt_mul_self c.le

/-- What the rule with two layers at one height makes of a wedge: the volume and a term for the difference of the end faces. -/
theorem wedge_two_layers {p : ℝ} (hp : p * p = 1 / 3) (rule : List QP) (hr : gaussWedge3x2 [(p, 1), (-p, 1)] = some rule)
    (a b c A B C : V3 ℝ) :
    volumeQ dW6 rule [a, b, c, A, B, C] = wedgeVol12 (fun i => [a, b, c, A, B, C].getD i 0) / 12 +
      p / 12 * (area2 (A + B + C - (a + b + c)) A B C - area2 (A + B + C - (a + b + c)) a b c) := by
  obtain rfl := Option.some.inj hr
  have hdiv : ∀ (e : PE) (n : Nat) (x : V3 ℝ), (e / n : PE).eval x = ((1 / (n : ℚ) : ℚ) : ℝ) * e.eval x := fun _ _ _ => rfl
  have e0 : ∀ x : V3 ℝ, PE.eval x (0 : PE) = 0 := fun x => by show ((0 : ℚ) : ℝ) = 0; norm_num
  have e1 : ∀ x : V3 ℝ, PE.eval x (1 : PE) = 1 := fun x => by show ((1 : ℚ) : ℝ) = 1; norm_num
  have er : ∀ x : V3 ℝ, PE.eval x PE.r = x.x := fun x => rfl
  have es : ∀ x : V3 ℝ, PE.eval x PE.s = x.y := fun x => rfl
  have et : ∀ x : V3 ℝ, PE.eval x PE.t = x.z := fun x => rfl
  simp only [volumeQ, gaussTri3a, List.map_cons, List.map_nil, List.cons_append, List.nil_append, List.foldl_cons, List.foldl_nil, dW6,
    dshpVals, jacDet3, hdiv, PE.eval_sub, PE.eval_add, PE.eval_neg, e0, e1, er, es, et,
    jacCol, List.zip_cons_cons, List.zip_nil_left, List.foldr_cons, List.foldr_nil, List.getD_cons_zero,
    List.getD_cons_succ, det3, add_x, add_y, add_z, sub_x, sub_y, sub_z, smul_x, smul_y, smul_z, zero_x, zero_y, zero_z, wedgeVol12, flux3,
    flux4, area2]
  push_cast
  linear_combination (((b.x - a.x - B.x + A.x) * ((c.y - a.y - C.y + A.y) * (A.z + B.z + C.z - a.z - b.z - c.z) - (c.z - a.z - C.z + A.z) * (A.y + B.y + C.y - a.y - b.y - c.y)) - (b.y - a.y - B.y + A.y) * ((c.x - a.x - C.x + A.x) * (A.z + B.z + C.z - a.z - b.z - c.z) - (c.z - a.z - C.z + A.z) * (A.x + B.x + C.x - a.x - b.x - c.x)) + (b.z - a.z - B.z + A.z) * ((c.x - a.x - C.x + A.x) * (A.y + B.y + C.y - a.y - b.y - c.y) - (c.y - a.y - C.y + A.y) * (A.x + B.x + C.x - a.x - b.x - c.x)))) / 24 * hp

/-- **C38** exact: the volume of a linear wedge by the rule with two layers is right exactly if the two end faces have the same area as
seen along the line through their centres. -/
theorem C38_W6_exact {inv : List (List ℚ) → Option (List (List ℚ))} (hinv : InvContract inv) {p : ℝ} (w : ℝ)
    (hl : LineExact 3 [(p, w), (-p, w)]) :
    ∃ N dN rule, generate inv (nodesQ lcW6) Shp.baseW6 [.r, .s, .t] = some (N, dN) ∧ gaussWedge3x2 [(p, w), (-p, w)] = some rule ∧
      ∀ a b c A B C : V3 ℝ, volumeQ dN rule [a, b, c, A, B, C] = wedgeVol12 (fun i => [a, b, c, A, B, C].getD i 0) / 12 ↔
        area2 (A + B + C - (a + b + c)) A B C = area2 (A + B + C - (a + b + c)) a b c := by
  obtain ⟨N, dN, h, -⟩ := C36_W6 hinv [.r, .s, .t] ℝ
  refine ⟨N, dN, _, h, rfl, fun a b c A B C => ?_⟩
  have hw : w = 1 := by
    have := hl 0 (by omega)
    simp at this
    norm_num at this
    linarith
  have hp : p * p = 1 / 3 := by
    have := hl 2 (by omega)
    rw [integral_pow] at this
    simp [hw] at this
    norm_num at this
    nlinarith
  subst hw
  have hp0 : p ≠ 0 := fun h0 => by rw [h0] at hp; norm_num at hp
  rw [generated_W6 hinv h, volumeQ_same genDW6_same, wedge_two_layers hp _ rfl]
  constructor
  · intro e
    have e : p * (area2 (A + B + C - (a + b + c)) A B C - area2 (A + B + C - (a + b + c)) a b c) = 0 := by linear_combination 12 * e
    exact sub_eq_zero.1 ((mul_eq_zero.1 e).resolve_left hp0)
  · intro e
    rw [e]
    ring

/-- The tapered wedge: areas 4 and 1, times the six units of the line. -/
example : area2 (⟨1, 1, 6⟩ : V3 ℝ) ⟨0, 0, 1⟩ ⟨2, 0, 1⟩ ⟨0, 2, 1⟩ ≠ area2 (⟨1, 1, 6⟩ : V3 ℝ) ⟨0, 0, -1⟩ ⟨1, 0, -1⟩ ⟨0, 1, -1⟩ := by
  norm_num [area2, det3]

end PM
