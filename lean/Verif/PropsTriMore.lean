import Verif.TriMore
import Verif.PropsFrames
import Verif.PropsTri
import Mathlib.Logic.Relation
import Mathlib.Tactic.NormNum.RealSqrt

/-!
# Properties C63-C66: inscribed circles, offset triangles, data at points, planarity
-/

namespace PM

set_option linter.unusedSectionVars false

open V3

/-! ## C63: inscribed circles -/

/-- Specification: the circle (or sphere) around `m` of radius `ρ` touches the side from `p` to `q`: some point of the side is
at distance `ρ`, and no point of its line is nearer. -/
def TouchesSide (m : V3 ℝ) (ρ : ℝ) (p q : V3 ℝ) : Prop :=
  (∃ t : ℝ, 0 ≤ t ∧ t ≤ 1 ∧ dist3 m (p + t • (q - p)) = ρ) ∧ ∀ t : ℝ, ρ ≤ dist3 m (p + t • (q - p))

/-- Specification: the circle around `m` of radius `ρ` is inscribed in the triangle: its centre is inside, it touches the
three sides. -/
structure Inscribed (a b c m : V3 ℝ) (ρ : ℝ) : Prop where
  inside : ∃ α β γ : ℝ, 0 < α ∧ 0 < β ∧ 0 < γ ∧ α + β + γ = 1 ∧ m = α • a + β • b + γ • c
  ab : TouchesSide m ρ a b
  bc : TouchesSide m ρ b c
  ca : TouchesSide m ρ c a

theorem lagrange (u v : V3 ℝ) : dot (cross u v) (cross u v) = dot u u * dot v v - dot u v ^ 2 := by
  simp only [dot, cross]; ring

theorem dist3_sq (p q : V3 ℝ) : dist3 p q ^ 2 = dot (p - q) (p - q) := by
  rw [dist3, Real.sq_sqrt (by positivity)]; simp only [dot, sub_x, sub_y, sub_z]; ring

theorem dist3_nonneg (p q : V3 ℝ) : 0 ≤ dist3 p q := Real.sqrt_nonneg _

theorem dot_cross_nonneg (u v : V3 ℝ) : 0 ≤ dot u u * dot v v - dot u v ^ 2 := by
  rw [← lagrange]; exact dot_self_nonneg _

/-- The squared distance from a line. -/
theorem dist_line (m p u : V3 ℝ) (t : ℝ) : dist3 m (p + t • u) ^ 2 * dot u u =
    dot (cross u (m - p)) (cross u (m - p)) + (t * dot u u - dot u (m - p)) ^ 2 := by
  rw [dist3_sq]
  simp only [dot, cross, sub_x, sub_y, sub_z, add_x, add_y, add_z, smul_x, smul_y, smul_z]; ring

/-- The radius of a circle touching a side. -/
theorem TouchesSide.radius {m p q : V3 ℝ} {ρ : ℝ} (h : TouchesSide m ρ p q) (hne : q - p ≠ 0) :
    0 ≤ ρ ∧ ρ ^ 2 * dot (q - p) (q - p) = dot (cross (q - p) (m - p)) (cross (q - p) (m - p)) := by
  obtain ⟨⟨t, -, -, ht⟩, hmin⟩ := h
  have hp := dot_self_pos hne
  have h0 : 0 ≤ ρ := ht ▸ dist3_nonneg _ _
  refine ⟨h0, le_antisymm ?_ ?_⟩
  · have e := dist_line m p (q - p) (dot (q - p) (m - p) / dot (q - p) (q - p))
    rw [div_mul_cancel₀ _ hp.ne', sub_self, zero_pow two_ne_zero, add_zero] at e
    rw [← e]
    exact mul_le_mul_of_nonneg_right (pow_le_pow_left₀ h0 (hmin _) 2) hp.le
  · have e := dist_line m p (q - p) t
    rw [ht] at e
    nlinarith [sq_nonneg (t * dot (q - p) (q - p) - dot (q - p) (m - p))]

/-- And conversely. -/
theorem TouchesSide.of {m p q : V3 ℝ} {ρ : ℝ} (hne : q - p ≠ 0) (h0 : 0 ≤ ρ)
    (h : ρ ^ 2 * dot (q - p) (q - p) = dot (cross (q - p) (m - p)) (cross (q - p) (m - p)))
    (h1 : 0 ≤ dot (q - p) (m - p)) (h2 : dot (q - p) (m - p) ≤ dot (q - p) (q - p)) : TouchesSide m ρ p q := by
  have hp := dot_self_pos hne
  refine ⟨⟨dot (q - p) (m - p) / dot (q - p) (q - p), div_nonneg h1 hp.le, (div_le_one hp).2 h2, ?_⟩, fun t => ?_⟩
  · have e := dist_line m p (q - p) (dot (q - p) (m - p) / dot (q - p) (q - p))
    rw [div_mul_cancel₀ _ hp.ne', sub_self, zero_pow two_ne_zero, add_zero, ← h] at e
    exact (pow_left_inj₀ (dist3_nonneg _ _) h0 two_ne_zero).1 (mul_right_cancel₀ hp.ne' e)
  · have e := dist_line m p (q - p) t
    rw [← h] at e
    have : ρ ^ 2 * dot (q - p) (q - p) ≤ dist3 m (p + t • (q - p)) ^ 2 * dot (q - p) (q - p) := by
      rw [e]; nlinarith [sq_nonneg (t * dot (q - p) (q - p) - dot (q - p) (m - p))]
    exact (pow_le_pow_iff_left₀ h0 (dist3_nonneg _ _) two_ne_zero).1 (le_of_mul_le_mul_right this hp)

theorem sub_ne_zero_of_cross {u v : V3 ℝ} (h : cross u v ≠ 0) : u ≠ 0 := by
  rintro rfl; apply h; ext <;> simp [cross]

theorem cross_rot (a b c : V3 ℝ) : cross (c - b) (a - b) = cross (b - a) (c - a) := by
  ext <;> simp only [cross, sub_x, sub_y, sub_z] <;> ring

theorem vnorm_nonneg (v : V3 ℝ) : 0 ≤ vnorm v := Real.sqrt_nonneg _

theorem vnorm_pow (v : V3 ℝ) : vnorm v ^ 2 = dot v v := by rw [sq, vnorm_sq]

theorem vnorm_rev (p q : V3 ℝ) : vnorm (p - q) = vnorm (q - p) := by rw [vnorm_sub, vnorm_sub, dist3_comm]

/-- Heron's formula and the inequalities of the triangle. -/
theorem heron (a b c : V3 ℝ) : let A := vnorm (c - b); let B := vnorm (a - c); let C := vnorm (b - a)
    (A ≤ B + C ∧ B ≤ C + A ∧ C ≤ A + B) ∧
    4 * dot (cross (b - a) (c - a)) (cross (b - a) (c - a)) = 4 * B ^ 2 * C ^ 2 - (B ^ 2 + C ^ 2 - A ^ 2) ^ 2 ∧
    2 * dot (b - a) (c - a) = B ^ 2 + C ^ 2 - A ^ 2 := by
  intro A B C
  have hA : A ^ 2 = dot (c - b) (c - b) := vnorm_pow _
  have hB : B ^ 2 = dot (a - c) (a - c) := vnorm_pow _
  have hC : C ^ 2 = dot (b - a) (b - a) := vnorm_pow _
  have a0 : 0 ≤ A := vnorm_nonneg _
  have b0 : 0 ≤ B := vnorm_nonneg _
  have c0 : 0 ≤ C := vnorm_nonneg _
  have hd : 2 * dot (b - a) (c - a) = B ^ 2 + C ^ 2 - A ^ 2 := by
    rw [hA, hB, hC]; simp only [dot, sub_x, sub_y, sub_z]; ring
  have hv : dot (c - a) (c - a) = B ^ 2 := by rw [hB]; simp only [dot, sub_x, sub_y, sub_z]; ring
  have hl := lagrange (b - a) (c - a)
  rw [← hC, hv] at hl
  have hn : 0 ≤ dot (cross (b - a) (c - a)) (cross (b - a) (c - a)) := dot_self_nonneg _
  have hq : 4 * dot (cross (b - a) (c - a)) (cross (b - a) (c - a)) = 4 * B ^ 2 * C ^ 2 - (B ^ 2 + C ^ 2 - A ^ 2) ^ 2 := by
    rw [← hd, hl]; ring
  have hcs : dot (b - a) (c - a) ^ 2 ≤ (B * C) ^ 2 := by nlinarith
  have hab := abs_le_of_sq_le_sq' hcs (mul_nonneg b0 c0)
  refine ⟨⟨?_, ?_, ?_⟩, hq, hd⟩
  · exact abs_le_of_sq_le_sq (by nlinarith [hab.1]) (by positivity) |> (le_trans (le_abs_self _) ·)
  · have : (B - C) ^ 2 ≤ A ^ 2 := by nlinarith [hab.2]
    linarith [(abs_le_of_sq_le_sq' this a0).2]
  · have : (B - C) ^ 2 ≤ A ^ 2 := by nlinarith [hab.2]
    linarith [(abs_le_of_sq_le_sq' this a0).1]

/-- The value computed: the norm of the cross product over the perimeter. -/
theorem inscribedRadius_eq {a b c : V3 ℝ} (h : cross (b - a) (c - a) ≠ 0) :
    0 < vnorm (c - b) + vnorm (a - c) + vnorm (b - a) ∧
    inscribedRadius a b c = some (vnorm (cross (b - a) (c - a)) / (vnorm (c - b) + vnorm (a - c) + vnorm (b - a))) := by
  obtain ⟨⟨t1, t2, t3⟩, hq, hd⟩ := heron a b c
  have hC : 0 < vnorm (b - a) := vnorm_pos (sub_ne_zero_of_cross h)
  have hA := vnorm_nonneg (c - b)
  have hB := vnorm_nonneg (a - c)
  have hs : 0 < vnorm (c - b) + vnorm (a - c) + vnorm (b - a) := by linarith
  refine ⟨hs, ?_⟩
  rw [inscribedRadius]
  simp only [vnorm_rev c a]
  rw [← vnorm_pow] at hq
  have hN := vnorm_nonneg (cross (b - a) (c - a))
  generalize vnorm (cross (b - a) (c - a)) = N at *
  generalize vnorm (c - b) = A at *
  generalize vnorm (a - c) = B at *
  generalize vnorm (b - a) = C at *
  rw [if_neg (by linarith)]
  congr 1
  have e : ((C + A + B) / 2 - C) * ((C + A + B) / 2 - A) * ((C + A + B) / 2 - B) / ((C + A + B) / 2) =
      (N / (A + B + C)) ^ 2 := by
    have : C + A + B ≠ 0 := by linarith
    have : A + B + C ≠ 0 := by linarith
    field_simp
    have e1 : C + A + B = A + B + C := by ring
    rw [e1]
    linear_combination (-(A + B + C)) * hq
  rw [e, Real.sqrt_sq (div_nonneg hN hs.le)]

/-- A side of the triangle and the centre of the inscribed circle. -/
theorem incircle_side {a b c : V3 ℝ} (h : cross (b - a) (c - a) ≠ 0) {A B C : ℝ} (eA : A = vnorm (c - b))
    (eB : B = vnorm (a - c)) (eC : C = vnorm (b - a)) {m : V3 ℝ}
    (hm : m = (A / (A + B + C)) • a + (B / (A + B + C)) • b + (C / (A + B + C)) • c) :
    TouchesSide m (vnorm (cross (b - a) (c - a)) / (A + B + C)) a b := by
  obtain ⟨⟨t1, t2, t3⟩, hq, hd⟩ := heron a b c
  obtain ⟨hs, -⟩ := inscribedRadius_eq h
  rw [← eA, ← eB, ← eC] at hs
  simp only [← eA, ← eB, ← eC] at t1 t2 t3 hq hd
  have hC : 0 < C := by rw [eC]; exact vnorm_pos (sub_ne_zero_of_cross h)
  have hC2 : C ^ 2 = dot (b - a) (b - a) := by rw [eC]; exact vnorm_pow _
  have hne := hs.ne'
  have e1 : m - a = (B / (A + B + C)) • (b - a) + (C / (A + B + C)) • (c - a) := by
    rw [hm]
    ext <;> simp only [sub_x, sub_y, sub_z, add_x, add_y, add_z, smul_x, smul_y, smul_z] <;> field_simp <;> ring
  have e2 : cross (b - a) (m - a) = (C / (A + B + C)) • cross (b - a) (c - a) := by
    rw [e1]; ext <;> simp only [cross, add_x, add_y, add_z, smul_x, smul_y, smul_z] <;> ring
  have e3 : dot (b - a) (m - a) = C * (B + C - A) / 2 := by
    have : dot (b - a) (m - a) = (B / (A + B + C)) * dot (b - a) (b - a) + (C / (A + B + C)) * dot (b - a) (c - a) := by
      rw [e1]; simp only [dot, add_x, add_y, add_z, smul_x, smul_y, smul_z]; ring
    rw [this, ← hC2]
    have hd' : dot (b - a) (c - a) = (B ^ 2 + C ^ 2 - A ^ 2) / 2 := by linarith
    rw [hd']; field_simp; ring
  refine TouchesSide.of (sub_ne_zero_of_cross h) (div_nonneg (vnorm_nonneg _) hs.le) ?_ ?_ ?_
  · rw [e2, dot_smul_smul, ← hC2, div_pow, vnorm_pow]; field_simp
  · rw [e3]; have : 0 ≤ B + C - A := by linarith
    positivity
  · rw [e3, ← hC2]; nlinarith

/-- **C63** for every triangle that is not degenerate, the value of `inscribed_radius` is the radius of its inscribed circle,
the only one there is. -/
theorem C63_inscribed {a b c : V3 ℝ} (h : cross (b - a) (c - a) ≠ 0) :
    ∃ r, inscribedRadius a b c = some r ∧ 0 < r ∧ (∃ m, Inscribed a b c m r) ∧ ∀ m ρ, Inscribed a b c m ρ → ρ = r := by
  obtain ⟨hs, hr⟩ := inscribedRadius_eq h
  have h2 : cross (c - b) (a - b) ≠ 0 := by rwa [cross_rot]
  have h3 : cross (a - c) (b - c) ≠ 0 := by rwa [cross_rot]
  have pC : 0 < vnorm (b - a) := vnorm_pos (sub_ne_zero_of_cross h)
  have pA : 0 < vnorm (c - b) := vnorm_pos (sub_ne_zero_of_cross h2)
  have pB : 0 < vnorm (a - c) := vnorm_pos (sub_ne_zero_of_cross h3)
  have hN : 0 < vnorm (cross (b - a) (c - a)) := vnorm_pos h
  refine ⟨_, hr, div_pos hN hs, ?_, ?_⟩
  · generalize eA : vnorm (c - b) = A at *
    generalize eB : vnorm (a - c) = B at *
    generalize eC : vnorm (b - a) = C at *
    refine ⟨_, ⟨A / (A + B + C), B / (A + B + C), C / (A + B + C), div_pos pA hs, div_pos pB hs, div_pos pC hs, ?_, rfl⟩,
      incircle_side h eA.symm eB.symm eC.symm rfl, ?_, ?_⟩
    · field_simp
    · have := incircle_side h2 (A := B) (B := C) (C := A) eB.symm eC.symm eA.symm rfl
      rw [cross_rot, show B + C + A = A + B + C by ring] at this
      convert this using 1
      ext <;> simp only [add_x, add_y, add_z] <;> ring
    · have := incircle_side h3 (A := C) (B := A) (C := B) eC.symm eA.symm eB.symm rfl
      rw [cross_rot, cross_rot, show C + A + B = A + B + C by ring] at this
      convert this using 1
      ext <;> simp only [add_x, add_y, add_z] <;> ring
  · rintro m ρ ⟨⟨α, β, γ, ha, hb, hc, hsum, rfl⟩, h12, h23, h31⟩
    obtain ⟨r0, r1⟩ := h12.radius (sub_ne_zero_of_cross h)
    obtain ⟨-, r2⟩ := h23.radius (sub_ne_zero_of_cross h2)
    obtain ⟨-, r3⟩ := h31.radius (sub_ne_zero_of_cross h3)
    have hα : α = 1 - β - γ := by linarith
    have c1 : cross (b - a) (α • a + β • b + γ • c - a) = γ • cross (b - a) (c - a) := by
      rw [hα]; ext <;> simp only [cross, sub_x, sub_y, sub_z, add_x, add_y, add_z, smul_x, smul_y, smul_z] <;> ring
    have c2 : cross (c - b) (α • a + β • b + γ • c - b) = α • cross (b - a) (c - a) := by
      rw [hα]; ext <;> simp only [cross, sub_x, sub_y, sub_z, add_x, add_y, add_z, smul_x, smul_y, smul_z] <;> ring
    have c3 : cross (a - c) (α • a + β • b + γ • c - c) = β • cross (b - a) (c - a) := by
      rw [hα]; ext <;> simp only [cross, sub_x, sub_y, sub_z, add_x, add_y, add_z, smul_x, smul_y, smul_z] <;> ring
    rw [c1, dot_smul_smul, ← vnorm_pow, ← vnorm_pow] at r1
    rw [c2, dot_smul_smul, ← vnorm_pow, ← vnorm_pow] at r2
    rw [c3, dot_smul_smul, ← vnorm_pow, ← vnorm_pow] at r3
    have key : ∀ {L k N : ℝ}, 0 < L → 0 < k → 0 < N → ρ ^ 2 * L ^ 2 = k * k * N ^ 2 → ρ * L = k * N := by
      intro L k N hL hk hN' e
      refine (pow_left_inj₀ (by positivity) (by positivity) two_ne_zero).1 ?_
      linear_combination e
    have q1 := key pC hc hN r1
    have q2 := key pA ha hN r2
    have q3 := key pB hb hN r3
    rw [eq_div_iff hs.ne']
    linear_combination q1 + q2 + q3 + (vnorm (cross (b - a) (c - a))) * hsum

/-- **C63** radius times half of the perimeter is the area. -/
theorem C63_area {a b c : V3 ℝ} (h : cross (b - a) (c - a) ≠ 0) :
    ∃ r, inscribedRadius a b c = some r ∧
      r * ((dist3 a b + dist3 b c + dist3 c a) / 2) = vnorm (cross (b - a) (c - a)) / 2 := by
  obtain ⟨hs, hr⟩ := inscribedRadius_eq h
  refine ⟨_, hr, ?_⟩
  rw [dist3_comm a b, dist3_comm b c, dist3_comm c a, ← vnorm_sub, ← vnorm_sub, ← vnorm_sub]
  field_simp
  ring

/-- **C63** many triangles: one radius for each. -/
theorem C63_bulk {ts : List (V3 ℝ × V3 ℝ × V3 ℝ)} {i : Nat} {t : V3 ℝ × V3 ℝ × V3 ℝ} (h : ts[i]? = some t) :
    (inscribedRadii ts)[i]? = some (inscribedRadius t.1 t.2.1 t.2.2) := by simp [inscribedRadii, h]

/-- The triangle with sides 3, 4, 5 has the inscribed circle of radius 1. -/
example : inscribedRadius ⟨0, 0, 0⟩ ⟨3, 0, 0⟩ ⟨0, 4, 0⟩ = some 1 := by
  have e1 : vnorm (⟨3, 0, 0⟩ - ⟨0, 0, 0⟩) = 3 := by
    rw [vnorm, show dot (⟨3, 0, 0⟩ - ⟨0, 0, 0⟩ : V3 ℝ) (⟨3, 0, 0⟩ - ⟨0, 0, 0⟩) = 3 ^ 2 by simp only [dot, sub_x, sub_y, sub_z]; norm_num]
    exact Real.sqrt_sq (by norm_num)
  have e2 : vnorm (⟨0, 4, 0⟩ - ⟨3, 0, 0⟩) = 5 := by
    rw [vnorm, show dot (⟨0, 4, 0⟩ - ⟨3, 0, 0⟩ : V3 ℝ) (⟨0, 4, 0⟩ - ⟨3, 0, 0⟩) = 5 ^ 2 by simp only [dot, sub_x, sub_y, sub_z]; norm_num]
    exact Real.sqrt_sq (by norm_num)
  have e3 : vnorm (⟨0, 4, 0⟩ - ⟨0, 0, 0⟩) = 4 := by
    rw [vnorm, show dot (⟨0, 4, 0⟩ - ⟨0, 0, 0⟩ : V3 ℝ) (⟨0, 4, 0⟩ - ⟨0, 0, 0⟩) = 4 ^ 2 by simp only [dot, sub_x, sub_y, sub_z]; norm_num]
    exact Real.sqrt_sq (by norm_num)
  simp only [inscribedRadius, e1, e2, e3]
  rw [if_neg (by norm_num)]
  norm_num

/-! ## C64: offset triangles -/

section
variable {K : Type} [Field K] [LinearOrder K] [IsStrictOrderedRing K]

/-- Specification: the centre of a triangle. -/
def triCentre (t : V3 K × V3 K × V3 K) : V3 K := (1 / 3 : K) • (t.1 + t.2.1 + t.2.2)

/-- Specification: `t'` is `t` shrunk about its centre by the factor `α`. -/
def Shrunk (α : K) (t t' : V3 K × V3 K × V3 K) : Prop :=
  t'.1 = triCentre t + α • (t.1 - triCentre t) ∧ t'.2.1 = triCentre t + α • (t.2.1 - triCentre t) ∧
    t'.2.2 = triCentre t + α • (t.2.2 - triCentre t)

/-- Specification: the common scale of the factors: 1, unless the largest factor exceeds 1, then its inverse. -/
def IsScale (data : List K) (k : K) : Prop :=
  0 < k ∧ k ≤ 1 ∧ (∀ d ∈ data, k * |d| ≤ 1) ∧ (k = 1 ∨ ∃ d ∈ data, k * |d| = 1)

/-- The scale is unique. -/
theorem IsScale.unique {data : List K} {k k' : K} (h : IsScale data k) (h' : IsScale data k') : k = k' := by
  have key : ∀ {k k' : K}, IsScale data k → IsScale data k' → k ≤ k' := by
    rintro k k' ⟨p, l, a, -⟩ ⟨p', l', a', rfl | ⟨d, hd, e⟩⟩
    · exact l
    · have := a d hd
      have hpos : 0 < |d| := by
        rcases (abs_nonneg d).lt_or_eq with h | h
        · exact h
        · rw [← h, mul_zero] at e; exact absurd e zero_ne_one
      exact le_of_mul_le_mul_right (this.trans e.symm.le) hpos
  exact le_antisymm (key h h') (key h' h)

theorem listMax_some : ∀ {l : List K}, l ≠ [] → ∃ m, listMax l = some m ∧ m ∈ l ∧ ∀ a ∈ l, a ≤ m
  | [], h => absurd rfl h
  | [a], _ => ⟨a, rfl, by simp, by simp⟩
  | a :: b :: l, _ => by
    obtain ⟨m, e, h1, h2⟩ := listMax_some (l := b :: l) (by simp)
    refine ⟨max a m, by rw [listMax, e], ?_, ?_⟩
    · rcases le_total a m with h | h
      · rw [max_eq_right h]; exact List.mem_cons_of_mem _ h1
      · rw [max_eq_left h]; exact List.mem_cons_self
    · intro x hx
      rcases List.mem_cons.1 hx with rfl | hx
      · exact le_max_left _ _
      · exact (h2 x hx).trans (le_max_right _ _)

theorem offsetFactors_some {data : List K} (h : data ≠ []) :
    ∃ k, IsScale data k ∧ offsetFactors data = some (data.map fun d => k * |d|) := by
  obtain ⟨m, e, h1, h2⟩ := listMax_some (l := data.map fun x => |x|) (by simpa using h)
  obtain ⟨d, hd, rfl⟩ := List.mem_map.1 h1
  have hle : ∀ x ∈ data, |x| ≤ |d| := fun x hx => h2 _ (List.mem_map_of_mem hx)
  by_cases hm : 1 < |d|
  · refine ⟨1 / |d|, ⟨by positivity, (div_le_one (by linarith)).2 hm.le, fun x hx => ?_, Or.inr ⟨d, hd, ?_⟩⟩, ?_⟩
    · rw [one_div, inv_mul_eq_div, div_le_one (by linarith)]; exact hle x hx
    · rw [one_div, inv_mul_cancel₀ (by linarith)]
    · rw [offsetFactors, e, Option.map_some, if_pos hm, List.map_map]
      congr 1
      apply List.map_congr_left
      intro x _
      simp only [Function.comp]
      ring
  · refine ⟨1, ⟨zero_lt_one, le_refl _, fun x hx => by rw [one_mul]; exact (hle x hx).trans (not_lt.1 hm), Or.inl rfl⟩, ?_⟩
    rw [offsetFactors, e, Option.map_some, if_neg hm]
    simp

theorem offset_shrunk (α : K) (t : V3 K × V3 K × V3 K) :
    Shrunk α t (offsetCorner α t 0, offsetCorner α t 1, offsetCorner α t 2) := by
  refine ⟨?_, ?_, ?_⟩ <;> ext <;>
    simp only [offsetCorner, offsetEntry, triCentre, add_x, add_y, add_z, sub_x, sub_y, sub_z, smul_x, smul_y, smul_z] <;>
    simp <;> ring

/-- **C64** offsetting with an array of factors: every triangle is shrunk about its own centre by the absolute value of its
factor, with all factors scaled down if the largest one exceeds 1. -/
theorem C64_partial {points : List (V3 K)} {tris : List (Nat × Nat × Nat)} {data : List K}
    (hn : ∀ r ∈ tris, r.1 < points.length ∧ r.2.1 < points.length ∧ r.2.2 < points.length)
    (hd : tris.length ≤ data.length) (h0 : data ≠ []) :
    ∃ res k, offsetTri points tris (.arr data) = some res ∧ res.length = tris.length ∧ IsScale data k ∧
      ∀ (i : Nat) (r : Nat × Nat × Nat) (d : K) (a b c : V3 K), tris[i]? = some r → data[i]? = some d →
        points[r.1]? = some a → points[r.2.1]? = some b → points[r.2.2]? = some c →
        ∃ t', res[i]? = some t' ∧ Shrunk (k * |d|) (a, b, c) t' := by
  obtain ⟨k, hk, e⟩ := offsetFactors_some h0
  have key : ∀ x ∈ tris.zipIdx, ∃ t', ((tri3Coords points x.1).bind fun t => ((data.map fun d => k * |d|)[x.2]?).map fun a =>
      (offsetCorner a t 0, offsetCorner a t 1, offsetCorner a t 2)) = some t' := by
    intro x hx
    have hx' := List.mem_zipIdx_iff_getElem?.1 hx
    obtain ⟨h1, h2, h3⟩ := hn x.1 (List.mem_of_getElem? hx')
    have hi : x.2 < data.length := by
      obtain ⟨h, -⟩ := List.getElem?_eq_some_iff.1 hx'
      omega
    simp [tri3Coords, List.getElem?_eq_getElem h1, List.getElem?_eq_getElem h2, List.getElem?_eq_getElem h3,
      List.getElem?_eq_getElem hi]
  obtain ⟨res, hres, -, -⟩ := mapM_exists (P := fun _ _ _ => True) fun i x hx => (key x (List.mem_of_getElem? hx)).imp fun _ h => ⟨h, trivial⟩
  refine ⟨res, k, by rw [offsetTri, e, Option.bind_some, offsetTriArr]; exact hres, ?_, hk, ?_⟩
  · have := mapM_length hres; simpa using this
  · intro i r d a b c hr hd ha hb hc
    have hz : tris.zipIdx[i]? = some (r, i) := by simp [hr]
    obtain ⟨t', h2, h1⟩ := mapM_get hres hz
    refine ⟨t', h1, ?_⟩
    simp only [tri3Coords, ha, hb, hc, Option.bind_some, Option.map_some, List.getElem?_map, hd, Option.some.injEq] at h2
    rw [← h2]
    exact offset_shrunk _ _

/-- **C64** a triangle shrunk by a factor from 0 to 1 keeps its centre, is inside of the triangle, and its area vector is
multiplied by the square of the factor. -/
theorem C64_shrunk {α : K} (h0 : 0 ≤ α) (h1 : α ≤ 1) {t t' : V3 K × V3 K × V3 K} (h : Shrunk α t t') :
    triCentre t' = triCentre t ∧
    (∀ p, p = t'.1 ∨ p = t'.2.1 ∨ p = t'.2.2 → ∃ x y z : K, 0 ≤ x ∧ 0 ≤ y ∧ 0 ≤ z ∧ x + y + z = 1 ∧
      p = x • t.1 + y • t.2.1 + z • t.2.2) ∧
    cross (t'.2.1 - t'.1) (t'.2.2 - t'.1) = (α * α) • cross (t.2.1 - t.1) (t.2.2 - t.1) := by
  obtain ⟨a, b, c⟩ := t
  obtain ⟨a', b', c'⟩ := t'
  obtain ⟨e1, e2, e3⟩ := h
  simp only at e1 e2 e3
  subst e1 e2 e3
  refine ⟨?_, ?_, ?_⟩
  · ext <;> simp only [triCentre, add_x, add_y, add_z, sub_x, sub_y, sub_z, smul_x, smul_y, smul_z] <;> ring
  · rintro p (rfl | rfl | rfl)
    · refine ⟨(1 + 2 * α) / 3, (1 - α) / 3, (1 - α) / 3, ?_, ?_, ?_, by ring, ?_⟩
      · linarith
      · linarith
      · linarith
      · ext <;> simp only [triCentre, add_x, add_y, add_z, sub_x, sub_y, sub_z, smul_x, smul_y, smul_z] <;> ring
    · refine ⟨(1 - α) / 3, (1 + 2 * α) / 3, (1 - α) / 3, ?_, ?_, ?_, by ring, ?_⟩
      · linarith
      · linarith
      · linarith
      · ext <;> simp only [triCentre, add_x, add_y, add_z, sub_x, sub_y, sub_z, smul_x, smul_y, smul_z] <;> ring
    · refine ⟨(1 - α) / 3, (1 - α) / 3, (1 + 2 * α) / 3, ?_, ?_, ?_, by ring, ?_⟩
      · linarith
      · linarith
      · linarith
      · ext <;> simp only [triCentre, add_x, add_y, add_z, sub_x, sub_y, sub_z, smul_x, smul_y, smul_z] <;> ring
  · ext <;> simp only [cross, triCentre, add_x, add_y, add_z, sub_x, sub_y, sub_z, smul_x, smul_y, smul_z] <;> ring

/-- **C64** is false for a single number: `offset_tri` with a float fails whatever the mesh. -/
theorem C64_float_false (points : List (V3 K)) (tris : List (Nat × Nat × Nat)) (a : K) :
    offsetTri points tris (.float a) = none := rfl

end

/-- One triangle, shrunk to half of its size; factor 2 of the second one is the largest. -/
example : offsetTri [(⟨0, 0, 0⟩ : V3 ℚ), ⟨6, 0, 0⟩, ⟨0, 6, 0⟩] [(0, 1, 2), (0, 1, 2)] (.arr [1, -2]) =
    some [(⟨1, 1, 0⟩, ⟨4, 1, 0⟩, ⟨1, 4, 0⟩), (⟨0, 0, 0⟩, ⟨6, 0, 0⟩, ⟨0, 6, 0⟩)] := by decide +kernel

/-! ## C65: data at points -/

section
variable {K : Type} [Field K] [LinearOrder K] [IsStrictOrderedRing K]

/-- What is interpolated for values of an affine function at the corners. -/
theorem interp_affine {f : P2 K → List K} {c0 cx cy : Nat → K} {nD : Nat}
    (hf : ∀ p, f p = (List.range nD).map fun j => c0 j + cx j * p.x + cy j * p.y)
    {points : List (P2 K)} {r : Nat × Nat × Nat} {t : Tri K} (ht : triCoords points r = some t) {p : P2 K} {n : N3 K}
    (hn : IsNat t p n) : interpRow (points.map f) nD r n = some (f p) := by
  rw [triCoords] at ht
  cases h1 : points[r.1]? with
  | none => simp [h1] at ht
  | some a => cases h2 : points[r.2.1]? with
    | none => simp [h1, h2] at ht
    | some b => cases h3 : points[r.2.2]? with
      | none => simp [h1, h2, h3] at ht
      | some c =>
        simp only [h1, h2, h3, Option.some.injEq] at ht
        subst ht
        simp only [interpRow, List.getElem?_map, h1, h2, h3, Option.map_some, Option.bind_some, Option.some.injEq]
        rw [hf p]
        apply List.map_congr_left
        intro j hj
        have hj' := List.mem_range.1 hj
        have g : ∀ q, (f q).getD j 0 = c0 j + cx j * q.x + cy j * q.y := by
          intro q
          rw [hf q]
          simp [List.getD_eq_getElem?_getD, hj']
        simp only [g]
        have e1 := hn.sum
        have e2 := hn.x
        have e3 := hn.y
        simp only at e2 e3
        rw [← e2, ← e3]
        linear_combination (c0 j) * e1

/-- **C65** what holds of `approx_data_to_points`: if every point that is found is found in the triangle with the *same number*,
then values of an affine function at the corners give its values at these points and the default value at the others, for
every schedule. Missing: everything else (`C65_row_false`, `C65_bounds_false`). -/
theorem C65_partial {points : List (P2 K)} {tris : List (Nat × Nat × Nat)} {ts : List (Tri K)}
    (ht : tris.mapM (triCoords points) = some ts) (hc : ∀ t ∈ ts, Ccw t) {coords : List (P2 K)}
    (hsame : ∀ (k i : Nat) (p : P2 K) (n : N3 K), coords[k]? = some p → localizeFrom p ts 0 = some (i, n) → i = k)
    {f : P2 K → List K} {c0 cx cy : Nat → K} {nD : Nat}
    (hf : ∀ p, f p = (List.range nD).map fun j => c0 j + cx j * p.x + cy j * p.y) (defval : K)
    {sched : List (Nat × List K) → List (Nat × List K)} (hs : ∀ w : List (Nat × List K), w.Perm (sched w)) :
    ∃ res, approxData points tris (points.map f) nD coords defval sched = some res ∧ res.length = coords.length ∧
      ∀ (k : Nat) (p : P2 K), coords[k]? = some p →
        ((localizeFrom p ts 0).isSome → res[k]? = some (f p)) ∧
        (localizeFrom p ts 0 = none → res[k]? = some (List.replicate nD defval)) ∧
        ((∃ t ∈ ts, InTri t p) → (localizeFrom p ts 0).isSome) := by
  have hloc : localizePoints points tris coords = some (coords.map fun g => localizeFrom g ts 0) := by
    rw [localizePoints, ht, Option.map_some]
  -- the writes
  have hw : ∃ w, approxWrites tris (points.map f) nD (coords.map fun g => localizeFrom g ts 0) = some w ∧
      ∀ x, x ∈ w ↔ ∃ p n, coords[x.1]? = some p ∧ localizeFrom p ts 0 = some (x.1, n) ∧ x.2 = f p := by
    have key : ∀ y ∈ ((coords.map fun g => localizeFrom g ts 0).filterMap id), ∃ p, coords[y.1]? = some p ∧
        localizeFrom p ts 0 = some y ∧ ((tris[y.1]?).bind fun r => (interpRow (points.map f) nD r y.2).bind fun v =>
          if y.1 < (coords.map fun g => localizeFrom g ts 0).length then some (y.1, v) else none) = some (y.1, f p) := by
      rintro ⟨i, n⟩ hy
      obtain ⟨o, ho, hoy⟩ := List.mem_filterMap.1 hy
      obtain ⟨p, hp, hpo⟩ := List.mem_map.1 ho
      simp only [id] at hoy
      subst hoy
      obtain ⟨k, hk⟩ := List.getElem?_of_mem hp
      have hik := hsame k i p n hk hpo
      subst hik
      obtain ⟨-, t, h1, h2, -⟩ := (C29_localize_partial hc p 0).2 i n hpo
      rw [Nat.sub_zero] at h1
      obtain ⟨hi, -⟩ := List.getElem?_eq_some_iff.1 h1
      have hi' : i < tris.length := by rw [← mapM_length ht]; exact hi
      obtain ⟨b, hb1, hb2⟩ := mapM_get ht (List.getElem?_eq_getElem hi')
      rw [h1] at hb2
      cases Option.some.inj hb2
      obtain ⟨hlt, -⟩ := List.getElem?_eq_some_iff.1 hk
      refine ⟨p, hk, hpo, ?_⟩
      simp only [List.getElem?_eq_getElem hi', Option.bind_some, interp_affine hf hb1 h2, List.length_map]
      rw [if_pos hlt]
    obtain ⟨w, hw, -, hw2⟩ := mapM_exists (P := fun _ (y : Nat × N3 K) (z : Nat × List K) => z.1 = y.1 ∧ ∃ p,
      coords[y.1]? = some p ∧ localizeFrom p ts 0 = some y ∧ z.2 = f p) (l := (coords.map fun g => localizeFrom g ts 0).filterMap id)
      (f := fun y => (tris[y.1]?).bind fun r => (interpRow (points.map f) nD r y.2).bind fun v =>
          if y.1 < (coords.map fun g => localizeFrom g ts 0).length then some (y.1, v) else none) fun i y hy => by
        obtain ⟨p, h1, h2, h3⟩ := key y (List.mem_of_getElem? hy)
        exact ⟨_, h3, rfl, p, h1, h2, rfl⟩
    have hlen := mapM_length hw
    refine ⟨w, hw, fun x => ⟨fun hx => ?_, ?_⟩⟩
    · obtain ⟨j, hj⟩ := List.getElem?_of_mem hx
      have hj2 : j < ((coords.map fun g => localizeFrom g ts 0).filterMap id).length := by
        rw [← hlen]; exact (List.getElem?_eq_some_iff.1 hj).1
      obtain ⟨h1, p, h2, h3, h4⟩ := hw2 j _ x (List.getElem?_eq_getElem hj2) hj
      rw [← h1] at h2
      refine ⟨p, (((coords.map fun g => localizeFrom g ts 0).filterMap id)[j]).2, h2, ?_, h4⟩
      rw [h3, h1]
    · rintro ⟨p, n, h1, h2, h3⟩
      have hm : (x.1, n) ∈ (coords.map fun g => localizeFrom g ts 0).filterMap id :=
        List.mem_filterMap.2 ⟨some (x.1, n), List.mem_map.2 ⟨p, List.mem_of_getElem? h1, h2⟩, rfl⟩
      obtain ⟨j, hj⟩ := List.getElem?_of_mem hm
      obtain ⟨z, hz1, hz2⟩ := mapM_get hw hj
      obtain ⟨e1, q, e2, e3, e4⟩ := hw2 j _ z hj hz2
      simp only at e1 e2
      rw [h1] at e2
      cases Option.some.inj e2
      have : z = x := Prod.ext e1 (e4.trans h3.symm)
      exact this ▸ List.mem_of_getElem? hz2
  obtain ⟨w, hw1, hw2⟩ := hw
  have hcons : Consistent w := by
    intro x hx y hy hxy
    obtain ⟨p, n, h1, h2, h3⟩ := (hw2 x).1 hx
    obtain ⟨q, m, k1, k2, k3⟩ := (hw2 y).1 hy
    rw [hxy, k1] at h1
    cases Option.some.inj h1
    rw [h3, k3]
  refine ⟨_, by rw [approxData, hloc, Option.bind_some, hw1, Option.map_some], by simp, ?_⟩
  intro k p hk
  obtain ⟨hlt, -⟩ := List.getElem?_eq_some_iff.1 hk
  have hget : ((List.range coords.length).map (runW (sched w) fun _ => List.replicate nD defval))[k]? =
      some (runW w (fun _ => List.replicate nD defval) k) := by
    rw [List.getElem?_map, List.getElem?_range hlt, Option.map_some, runW_perm hcons (hs w)]
  refine ⟨fun h => ?_, fun h => ?_, fun h => ?_⟩
  · obtain ⟨⟨i, n⟩, hi⟩ := Option.isSome_iff_exists.1 h
    have := hsame k i p n hk hi
    subst this
    rw [hget, runW_of_mem hcons ((hw2 (i, f p)).2 ⟨p, n, hk, hi, rfl⟩)]
  · rw [hget, runW_of_not_mem]
    intro x hx hxk
    obtain ⟨q, n, k1, k2, -⟩ := (hw2 x).1 hx
    rw [hxk, hk] at k1
    cases Option.some.inj k1
    rw [h] at k2
    cases k2
  · obtain ⟨r, hr⟩ := (C29_localize_partial hc p 0).1 h
    simp [hr]

end

/-- The corners of two triangles far from each other. -/
def farPts : List (P2 ℚ) := [⟨0, 0⟩, ⟨4, 0⟩, ⟨0, 4⟩, ⟨20, 0⟩, ⟨24, 0⟩, ⟨20, 4⟩]

/-- Two triangles, two points: the first in the second triangle and the second in the first one. The values of `x` are
returned in the wrong order: **C65** is false in general. -/
theorem C65_row_false : approxData farPts [(0, 1, 2), (3, 4, 5)] [[0], [4], [0], [20], [24], [20]] 1
    [⟨21, 1⟩, ⟨1, 1⟩] (0 : ℚ) id = some [[1], [21]] := by decide +kernel

/-- One point in the second triangle: the value is written behind the end of the result. -/
theorem C65_bounds_false : approxData farPts [(0, 1, 2), (3, 4, 5)] [[0], [4], [0], [20], [24], [20]] 1
    [⟨21, 1⟩] (0 : ℚ) id = none := by decide +kernel

/-- Two points in one triangle: one of the values is lost, which one depends on the schedule. -/
theorem C65_race_false : approxData farPts [(0, 1, 2), (3, 4, 5)] [[0], [4], [0], [20], [24], [20]] 1
    [⟨1, 1⟩, ⟨2, 1⟩] (0 : ℚ) id = some [[2], [0]] ∧
    approxData farPts [(0, 1, 2), (3, 4, 5)] [[0], [4], [0], [20], [24], [20]] 1
    [⟨1, 1⟩, ⟨2, 1⟩] (0 : ℚ) List.reverse = some [[1], [0]] := by decide +kernel

/-- A case of `C65_partial`: the points in the order of the triangles. -/
example : approxData farPts [(0, 1, 2), (3, 4, 5)] [[0], [4], [0], [20], [24], [20]] 1
    [⟨1, 1⟩, ⟨21, 1⟩] (0 : ℚ) id = some [[1], [21]] := by decide +kernel

/-! ## C66: planarity -/

/-- **C66** unit normals: the answer is yes exactly if no normal deviates from the first one by more than `√(2 tol)`. -/
theorem C66_surface {n0 : V3 ℝ} {rest : List (V3 ℝ)} (h0 : dot n0 n0 = 1) (h : ∀ n ∈ rest, dot n n = 1) {tol : ℝ} (ht : 0 ≤ tol) :
    ∃ P, isPlanarSurface (n0 :: rest) tol = some P ∧ (P ↔ ∀ n ∈ n0 :: rest, dist3 n n0 ^ 2 ≤ 2 * tol) := by
  refine ⟨_, rfl, ?_⟩
  have e : ∀ n, dot n n = 1 → |dot n n0 - 1| = dist3 n n0 ^ 2 / 2 := by
    intro n hn
    have : dist3 n n0 ^ 2 = dot n n + dot n0 n0 - 2 * dot n n0 := by
      rw [dist3_sq]; simp only [dot, sub_x, sub_y, sub_z]; ring
    rw [hn, h0] at this
    have h2 : dot n n0 - 1 = -(dist3 n n0 ^ 2 / 2) := by linarith
    rw [h2, abs_neg, abs_of_nonneg (by positivity)]
  constructor
  · rintro ⟨-, hP⟩ n hn
    rcases List.mem_cons.1 hn with rfl | hn
    · rw [dist3_sq]; simp only [dot, sub_x, sub_y, sub_z, sub_self, mul_zero, add_zero]; linarith
    · have := hP n hn
      rw [e n (h n hn)] at this
      linarith
  · intro hP
    refine ⟨ht, fun n hn => ?_⟩
    rw [e n (h n hn)]
    have := hP n (List.mem_cons_of_mem _ hn)
    linarith

/-- Without tolerance: exactly if all normals are the same. -/
theorem C66_surface_exact {n0 : V3 ℝ} {rest : List (V3 ℝ)} (h0 : dot n0 n0 = 1) (h : ∀ n ∈ rest, dot n n = 1) :
    ∃ P, isPlanarSurface (n0 :: rest) 0 = some P ∧ (P ↔ ∀ n ∈ rest, n = n0) := by
  obtain ⟨P, h1, h2⟩ := C66_surface h0 h (le_refl 0)
  refine ⟨P, h1, h2.trans ⟨fun H n hn => ?_, fun H n hn => ?_⟩⟩
  · have := H n (List.mem_cons_of_mem _ hn)
    rw [mul_zero, dist3_sq] at this
    by_contra hne
    have hz : n - n0 ≠ 0 := fun hz => hne (by
      ext
      · have := congrArg V3.x hz; simp only [sub_x, zero_x] at this; linarith
      · have := congrArg V3.y hz; simp only [sub_y, zero_y] at this; linarith
      · have := congrArg V3.z hz; simp only [sub_z, zero_z] at this; linarith)
    linarith [dot_self_pos hz]
  · have : n = n0 := by
      rcases List.mem_cons.1 hn with rfl | hn
      · rfl
      · exact H n hn
    rw [this, dist3_sq]; simp [dot]

/-- Specification: the cells hang together by common nodes. -/
def Connected (topo : Topo) : Prop :=
  ∀ r ∈ topo, ∀ r' ∈ topo, Relation.ReflTransGen (fun x y => y ∈ topo ∧ ∃ n, n ∈ x ∧ n ∈ y) r r'

/-- Specification: the points of the triangles. -/
structure TriMeshOK (coords : List (V3 ℝ)) (topo : Topo) (pts : List Nat → V3 ℝ × V3 ℝ × V3 ℝ) : Prop where
  three : ∀ r ∈ topo, ∃ a b c, r = [a, b, c] ∧ coords[a]? = some (pts r).1 ∧ coords[b]? = some (pts r).2.1 ∧
    coords[c]? = some (pts r).2.2
  area : ∀ r ∈ topo, cross ((pts r).2.1 - (pts r).1) ((pts r).2.2 - (pts r).1) ≠ 0

theorem TriMeshOK.frames {coords : List (V3 ℝ)} {topo : Topo} {pts : List Nat → V3 ℝ × V3 ℝ × V3 ℝ}
    (h : TriMeshOK coords topo pts) : ∃ Fs, framesOfSurfaces coords topo = some Fs ∧ Fs.length = topo.length ∧
      ∀ (c : Nat) (row : List Nat) (F : Frame), topo[c]? = some row → Fs[c]? = some F →
        IsFrame F ∧ Along F.k (cross ((pts row).2.1 - (pts row).1) ((pts row).2.2 - (pts row).1)) := by
  obtain ⟨Fs, h1, h2, h3⟩ := C31_surfaces (coords := coords) (topo := topo)
    (ev := fun r => ((pts r).2.1 - (pts r).1, (pts r).2.2 - (pts r).1)) (by
      intro r hr
      obtain ⟨a, b, c, rfl, e1, e2, e3⟩ := h.three r hr
      exact ⟨⟨a, b, c, _, _, _, rfl, rfl, rfl, e1, e2, e3, rfl, rfl⟩, h.area _ hr⟩)
  exact ⟨Fs, h1, h2, fun c row F hc hF => ⟨(h3 c row F hc hF).1, (h3 c row F hc hF).2.2⟩⟩

/-- A vector with zero cross product with a unit vector is a multiple of it. -/
theorem eq_smul_of_cross {n w : V3 ℝ} (h1 : dot n n = 1) (h : cross n w = 0) : w = dot n w • n := by
  have ex := congrArg V3.x h
  have ey := congrArg V3.y h
  have ez := congrArg V3.z h
  simp only [cross, zero_x, zero_y, zero_z] at ex ey ez
  simp only [dot] at h1
  ext <;> simp only [smul_x, smul_y, smul_z, dot]
  · linear_combination (-w.x) * h1 - n.y * ez + n.z * ey
  · linear_combination (-w.y) * h1 - n.z * ex + n.x * ez
  · linear_combination (-w.z) * h1 - n.x * ey + n.y * ex

theorem cross_eq_smul {n u v : V3 ℝ} (h1 : dot n n = 1) (hu : dot n u = 0) (hv : dot n v = 0) :
    cross u v = dot n (cross u v) • n := by
  apply eq_smul_of_cross h1
  simp only [dot] at hu hv
  ext <;> simp only [cross, zero_x, zero_y, zero_z]
  · linear_combination u.x * hv - v.x * hu
  · linear_combination u.y * hv - v.y * hu
  · linear_combination u.z * hv - v.z * hu

theorem along_perp {k u v : V3 ℝ} (h : Along k (cross u v)) : dot k u = 0 ∧ dot k v = 0 := by
  obtain ⟨c, -, rfl⟩ := h
  constructor <;> simp only [dot, cross, smul_x, smul_y, smul_z] <;> ring

/-- Specification: the mesh is flat: all its nodes are in the plane `n · p = d`, and all triangles are counter-clockwise seen
from the side of `n`. -/
def FlatMesh (coords : List (V3 ℝ)) (topo : Topo) (pts : List Nat → V3 ℝ × V3 ℝ × V3 ℝ) (n : V3 ℝ) (d : ℝ) : Prop :=
  dot n n = 1 ∧ ∀ r ∈ topo, (∀ q ∈ r, ∀ p, coords[q]? = some p → dot n p = d) ∧
    0 < dot n (cross ((pts r).2.1 - (pts r).1) ((pts r).2.2 - (pts r).1))

/-- **C66** a mesh of triangles that hang together (`TriMesh.is_planar`, trimesh.py 95-108): the answer is yes exactly if the
mesh is flat and the triangles are turned the same way. -/
theorem C66_mesh {coords : List (V3 ℝ)} {topo : Topo} {pts : List Nat → V3 ℝ × V3 ℝ × V3 ℝ}
    (h : TriMeshOK coords topo pts) (hc : Connected topo) (hne : topo ≠ []) :
    ∃ Fs P, framesOfSurfaces coords topo = some Fs ∧ isPlanarSurface (Fs.map Frame.k) 0 = some P ∧
      (P ↔ ∃ n d, FlatMesh coords topo pts n d) := by
  obtain ⟨Fs, h1, h2, h3⟩ := h.frames
  have hr : ∀ r ∈ topo, ∃ F ∈ Fs, IsFrame F ∧ Along F.k (cross ((pts r).2.1 - (pts r).1) ((pts r).2.2 - (pts r).1)) := by
    intro r hr
    obtain ⟨i, hi⟩ := List.getElem?_of_mem hr
    have hi' : i < Fs.length := by rw [h2]; exact (List.getElem?_eq_some_iff.1 hi).1
    exact ⟨Fs[i], List.getElem_mem hi', h3 i r _ hi (List.getElem?_eq_getElem hi')⟩
  have hF : ∀ F ∈ Fs, ∃ r ∈ topo, IsFrame F ∧ Along F.k (cross ((pts r).2.1 - (pts r).1) ((pts r).2.2 - (pts r).1)) := by
    intro F hF
    obtain ⟨i, hi⟩ := List.getElem?_of_mem hF
    have hi' : i < topo.length := by rw [← h2]; exact (List.getElem?_eq_some_iff.1 hi).1
    exact ⟨topo[i], List.getElem_mem hi', h3 i _ F (List.getElem?_eq_getElem hi') hi⟩
  cases Fs with
  | nil => exact absurd (List.length_eq_zero_iff.1 h2.symm) hne
  | cons F0 Fr =>
    obtain ⟨r0, hr0, f0, -⟩ := hF F0 List.mem_cons_self
    obtain ⟨P, p1, p2⟩ := C66_surface_exact (n0 := F0.k) (rest := Fr.map Frame.k) f0.kk (by
      intro n hn
      obtain ⟨F, hF', rfl⟩ := List.mem_map.1 hn
      obtain ⟨-, -, f, -⟩ := hF F (List.mem_cons_of_mem _ hF')
      exact f.kk)
    refine ⟨_, P, h1, p1, p2.trans ⟨fun H => ?_, ?_⟩⟩
    · have hk : ∀ F ∈ F0 :: Fr, F.k = F0.k := by
        intro F hF'
        rcases List.mem_cons.1 hF' with rfl | hF'
        · rfl
        · exact H _ (List.mem_map_of_mem hF')
      -- on one triangle
      have one : ∀ r ∈ topo, ∃ d, ∀ q ∈ r, ∃ p, coords[q]? = some p ∧ dot F0.k p = d := by
        intro r hr'
        obtain ⟨F, hF', -, ha⟩ := hr r hr'
        rw [hk F hF'] at ha
        obtain ⟨a1, a2⟩ := along_perp ha
        obtain ⟨a, b, c, rfl, e1, e2, e3⟩ := h.three r hr'
        simp only [dot, sub_x, sub_y, sub_z] at a1 a2
        refine ⟨dot F0.k (pts [a, b, c]).1, ?_⟩
        intro q hq
        simp only [List.mem_cons, List.not_mem_nil, or_false] at hq
        rcases hq with rfl | rfl | rfl
        · exact ⟨_, e1, rfl⟩
        · exact ⟨_, e2, by simp only [dot]; linarith⟩
        · exact ⟨_, e3, by simp only [dot]; linarith⟩
      obtain ⟨d, hd⟩ := one r0 hr0
      have all : ∀ r, Relation.ReflTransGen (fun x y => y ∈ topo ∧ ∃ n, n ∈ x ∧ n ∈ y) r0 r →
          ∀ q ∈ r, ∃ p, coords[q]? = some p ∧ dot F0.k p = d := by
        intro r hrel
        induction hrel with
        | refl => exact hd
        | tail _ hst ih =>
          obtain ⟨ht, n, hn1, hn2⟩ := hst
          obtain ⟨d', hd'⟩ := one _ ht
          obtain ⟨p, e1, e2⟩ := ih n hn1
          obtain ⟨p', e1', e2'⟩ := hd' n hn2
          rw [e1] at e1'
          cases Option.some.inj e1'
          rw [e2] at e2'
          subst e2'
          exact hd'
      refine ⟨F0.k, d, f0.kk, fun r hr' => ⟨fun q hq p hp => ?_, ?_⟩⟩
      · obtain ⟨p', e1, e2⟩ := all r (hc r0 hr0 r hr') q hq
        rw [hp] at e1
        cases Option.some.inj e1
        exact e2
      · obtain ⟨F, hF', f, ha⟩ := hr r hr'
        rw [← hk F hF']
        obtain ⟨c, hc0, hce⟩ := ha
        have hp := dot_self_pos (h.area r hr')
        rw [hce]
        have : ∀ w : V3 ℝ, dot (c • w) w = c * dot w w := fun w => by simp only [dot, smul_x, smul_y, smul_z]; ring
        rw [this]
        positivity
    · rintro ⟨n, d, hn, hm⟩
      have hk : ∀ F ∈ F0 :: Fr, F.k = n := by
        intro F hF'
        obtain ⟨r, hr', f, c, hc0, hce⟩ := hF F hF'
        obtain ⟨hpl, hpos⟩ := hm r hr'
        obtain ⟨a, b, c', hrow, e1, e2, e3⟩ := h.three r hr'
        have m1 := hpl a (by simp [hrow]) _ e1
        have m2 := hpl b (by simp [hrow]) _ e2
        have m3 := hpl c' (by simp [hrow]) _ e3
        have hx := cross_eq_smul hn (u := (pts r).2.1 - (pts r).1) (v := (pts r).2.2 - (pts r).1)
          (by simp only [dot, sub_x, sub_y, sub_z] at m1 m2 ⊢; linarith)
          (by simp only [dot, sub_x, sub_y, sub_z] at m1 m3 ⊢; linarith)
        generalize dot n (cross ((pts r).2.1 - (pts r).1) ((pts r).2.2 - (pts r).1)) = w at hx hpos
        have hkk := f.kk
        rw [hce, hx, dot_smul_smul, dot_smul_smul, hn, mul_one] at hkk
        have h1' : (c * w) ^ 2 = 1 ^ 2 := by linear_combination hkk
        have h2' : c * w = 1 := (pow_left_inj₀ (by positivity) zero_le_one two_ne_zero).1 h1'
        rw [hce, hx]
        ext <;> simp only [smul_x, smul_y, smul_z] <;> rw [← mul_assoc, h2', one_mul]
      intro m hm'
      obtain ⟨F, hF', rfl⟩ := List.mem_map.1 hm'
      rw [hk F (List.mem_cons_of_mem _ hF'), hk F0 List.mem_cons_self]

/-- Two triangles of a square. -/
example : TriMeshOK [⟨0, 0, 0⟩, ⟨1, 0, 0⟩, ⟨1, 1, 0⟩, ⟨0, 1, 0⟩] [[0, 1, 2], [0, 2, 3]]
    (fun r => if r = [0, 1, 2] then (⟨0, 0, 0⟩, ⟨1, 0, 0⟩, ⟨1, 1, 0⟩) else (⟨0, 0, 0⟩, ⟨1, 1, 0⟩, ⟨0, 1, 0⟩)) ∧
    Connected [[0, 1, 2], [0, 2, 3]] := by
  refine ⟨⟨?_, ?_⟩, ?_⟩
  · intro r hr
    simp only [List.mem_cons, List.not_mem_nil, or_false] at hr
    rcases hr with rfl | rfl
    · exact ⟨0, 1, 2, rfl, by simp⟩
    · exact ⟨0, 2, 3, rfl, by simp⟩
  · intro r hr
    simp only [List.mem_cons, List.not_mem_nil, or_false] at hr
    rcases hr with rfl | rfl <;> intro h <;> have := congrArg V3.z h <;> simp [cross] at this
  · intro r hr r' hr'
    apply Relation.ReflTransGen.single
    simp only [List.mem_cons, List.not_mem_nil, or_false] at hr hr'
    rcases hr with rfl | rfl <;> rcases hr' with rfl | rfl <;> exact ⟨by simp, 0, by simp, by simp⟩

/-- **C66** is false for normals alone: two parallel triangles at different heights count as a flat surface. -/
theorem C66_parallel_false : ∃ coords : List (V3 ℝ), ∃ Fs P,
    framesOfSurfaces coords [[0, 1, 2], [3, 4, 5]] = some Fs ∧ isPlanarSurface (Fs.map Frame.k) 0 = some P ∧ P ∧
    ¬ ∃ (n : V3 ℝ) (d : ℝ), n ≠ 0 ∧ ∀ p ∈ coords, dot n p = d := by
  have key : ∀ z : ℝ, surfaceFrame (⟨1, 0, z⟩ - ⟨0, 0, z⟩) (⟨0, 1, z⟩ - ⟨0, 0, z⟩) =
      surfaceFrame (⟨1, 0, 0⟩ - ⟨0, 0, 0⟩) (⟨0, 1, 0⟩ - ⟨0, 0, 0⟩) := by
    intro z; congr 1 <;> ext <;> simp
  obtain ⟨F, hF, hF', -, -⟩ := surfaceFrame_spec (u := ⟨1, 0, 0⟩ - ⟨0, 0, 0⟩) (v := ⟨0, 1, 0⟩ - ⟨0, 0, 0⟩)
    (by intro h; have := congrArg V3.z h; simp [cross] at this)
  refine ⟨[⟨0, 0, 0⟩, ⟨1, 0, 0⟩, ⟨0, 1, 0⟩, ⟨0, 0, 1⟩, ⟨1, 0, 1⟩, ⟨0, 1, 1⟩], [F, F], _, ?_, rfl, ?_, ?_⟩
  · simp [framesOfSurfaces, surfaceVecs, key 1, hF]
  · refine ⟨le_refl _, ?_⟩
    simp [hF'.kk]
  · rintro ⟨n, d, hn, hp⟩
    simp only [List.mem_cons, List.not_mem_nil, or_false, forall_eq_or_imp, forall_eq, dot] at hp
    obtain ⟨h1, h2, h3, h4, -, -⟩ := hp
    apply hn
    ext <;> simp only [zero_x, zero_y, zero_z] <;> linarith

/-- **C66** `is_line` is true for every list that ends where it began if zero rows stay zero, whether or not the points are on a
line. -/
theorem C66_closed_false {coords : List (V3 ℝ)} {p0 : V3 ℝ} (hp : coords.head? = some p0) (hq : coords.getLast? = some p0)
    {tol : ℝ} (ht : 0 ≤ tol) : ∃ P, isLine true coords tol = some P ∧ P := by
  cases coords with
  | nil => simp at hp
  | cons p rest =>
    cases Option.some.inj hp
    refine ⟨_, rfl, ?_⟩
    have hz : p0 + -p0 = 0 := by ext <;> simp
    obtain ⟨c, hc, hl, -⟩ := mapM_exists (l := p0 :: rest) (f := fun (p : V3 ℝ) => normalizeRow true (p + -p0))
      (P := fun _ _ _ => True) (by
        intro i x _
        unfold normalizeRow
        cases normalize (x + -p0) with
        | none => exact ⟨0, rfl, trivial⟩
        | some e => exact ⟨e, rfl, trivial⟩)
    have z : normalizeRow true (p0 + -p0) = some 0 := by rw [hz, normalizeRow, normalize_zero]; rfl
    have hd : ∀ i, (p0 :: rest)[i]? = some p0 → c.getD i 0 = 0 := by
      intro i hi
      obtain ⟨b, h1, h2⟩ := mapM_get hc hi
      rw [z] at h1
      rw [List.getD_eq_getElem?_getD, h2, ← Option.some.inj h1]
      rfl
    have h0 := hd 0 rfl
    have h1 := hd rest.length (by rw [List.getLast?_eq_getElem?] at hq; simpa using hq)
    simp only [hc]
    refine ⟨ht, fun v _ => ?_⟩
    rw [h0, h1]
    simpa [dot] using ht

/-- Three corners of a triangle. -/
example : ∃ P, isLine true [⟨0, 0, 0⟩, ⟨1, 0, 0⟩, ⟨0, 1, 0⟩, ⟨0, 0, 0⟩] 0 = some P ∧ P := C66_closed_false rfl rfl le_rfl

/-- **C66** `is_line` is false for every list of at least two points that ends elsewhere than it began, whether or not the points
are on a line; if zero rows are normalized to NaN it is false for every list. -/
theorem C66_line_false {coords : List (V3 ℝ)} {p0 q : V3 ℝ} (hp : coords.head? = some p0) (hq : coords.getLast? = some q)
    {tol : ℝ} (ht : tol < 1) (keep : Bool) (h : q ≠ p0 ∨ keep = false) : ∃ P, isLine keep coords tol = some P ∧ ¬ P := by
  cases coords with
  | nil => simp at hp
  | cons p rest =>
    cases Option.some.inj hp
    refine ⟨_, rfl, ?_⟩
    have hz : p0 + -p0 = 0 := by ext <;> simp
    cases hc : (p0 :: rest).mapM fun (p : V3 ℝ) => normalizeRow keep (p + -p0) with
    | none => simp
    | some c =>
      simp only
      rintro ⟨-, hP⟩
      have hlen := mapM_length hc
      obtain ⟨b, hb1, hb2⟩ := mapM_get hc (i := 0) (a := p0) (by simp)
      rw [hz, normalizeRow, normalize_zero] at hb1
      simp only at hb1
      by_cases hk : keep = true
      · rw [if_pos hk] at hb1
        cases Option.some.inj hb1
        have hne : q ≠ p0 := by
          rcases h with h | h
          · exact h
          · rw [hk] at h; cases h
        rw [List.getLast?_eq_getElem?] at hq
        simp only [List.length_cons, Nat.add_sub_cancel] at hq
        have hr : rest ≠ [] := by
          rintro rfl
          simp at hq
          exact hne hq.symm
        obtain ⟨e, he1, he2⟩ := mapM_get hc hq
        have hqz : q + -p0 ≠ 0 := by
          intro hz'
          apply hne
          ext
          · have := congrArg V3.x hz'; simp only [add_x, neg_x, zero_x] at this; linarith
          · have := congrArg V3.y hz'; simp only [add_y, neg_y, zero_y] at this; linarith
          · have := congrArg V3.z hz'; simp only [add_z, neg_z, zero_z] at this; linarith
        obtain ⟨e', n1, n2, -⟩ := normalize_some hqz
        rw [normalizeRow, n1] at he1
        cases Option.some.inj he1
        have hmem : e ∈ c.tail := by
          cases c with
          | nil => simp at hb2
          | cons c0 cr =>
            cases rest with
            | nil => exact absurd rfl hr
            | cons r0 rr =>
              simp only [List.length_cons, List.getElem?_cons_succ] at he2
              exact List.mem_of_getElem? he2
        have := hP e hmem
        have g1 : c.getD rest.length 0 = e := by rw [List.getD_eq_getElem?_getD, he2, Option.getD_some]
        have g2 : c.getD 0 0 = 0 := by rw [List.getD_eq_getElem?_getD, hb2, Option.getD_some]
        rw [g1, g2, show e - 0 = e by ext <;> simp, n2, abs_one] at this
        linarith
      · rw [if_neg hk] at hb1
        cases hb1

/-- Three points on a line are not recognized. -/
example (keep : Bool) : ∃ P, isLine keep [⟨0, 0, 0⟩, ⟨1, 0, 0⟩, ⟨2, 0, 0⟩] (1 / 2) = some P ∧ ¬ P :=
  C66_line_false (p0 := ⟨0, 0, 0⟩) (q := ⟨2, 0, 0⟩) rfl rfl (by norm_num) keep
    (Or.inl fun h => by have := congrArg V3.x h; norm_num at this)

/-- The normal of three points. -/
theorem frameOfPlane3 {a b c : V3 ℝ} (h : cross (b - a) (c - a) ≠ 0) :
    ∃ g F, frameOfPlane [a, b, c] = some (g, F) ∧ IsFrame F ∧ Along F.k (cross (b - a) (c - a)) := by
  have e : cross (a - centroid [a, b, c]) (b - centroid [a, b, c]) = (1 / 3 : ℝ) • cross (b - a) (c - a) := by
    ext <;> simp [cross, centroid] <;> ring
  have hne : cross (a - centroid [a, b, c]) (b - centroid [a, b, c]) ≠ 0 := by
    rw [e]
    intro hz
    apply h
    ext
    · have := congrArg V3.x hz; simp only [smul_x, zero_x] at this ⊢; linarith
    · have := congrArg V3.y hz; simp only [smul_y, zero_y] at this ⊢; linarith
    · have := congrArg V3.z hz; simp only [smul_z, zero_z] at this ⊢; linarith
  obtain ⟨F, h1, h2, -, c', hc, h4⟩ := C31_plane_partial (coords := [a, b, c]) (p := a) (q := b) (by simp) (by simp) hne
  refine ⟨_, F, h1, h2, c' * (1 / 3), by positivity, ?_⟩
  rw [h4, e]
  ext <;> simp only [smul_x, smul_y, smul_z] <;> ring

/-- Three collinear points have no frame. -/
theorem frameOfPlane3_none {a b c : V3 ℝ} (h : cross (b - a) (c - a) = 0) : frameOfPlane [a, b, c] = none := by
  have e : cross (a - centroid [a, b, c]) (b - centroid [a, b, c]) = 0 := by
    have : cross (a - centroid [a, b, c]) (b - centroid [a, b, c]) = (1 / 3 : ℝ) • cross (b - a) (c - a) := by
      ext <;> simp [cross, centroid] <;> ring
    rw [this, h]; ext <;> simp
  have hs : surfaceFrame (a - centroid [a, b, c]) (b - centroid [a, b, c]) = none := by
    rw [surfaceFrame]
    by_cases hu : a - centroid [a, b, c] = 0
    · rw [hu, normalize_zero, Option.bind_none]
    · by_cases hv : b - centroid [a, b, c] = 0
      · rw [hv, normalize_zero]
        simp only [Option.bind_none, Option.bind_fun_none]
      · obtain ⟨e1, n1, -, c1, -, rfl⟩ := normalize_some hu
        obtain ⟨e2, n2, -, c2, -, rfl⟩ := normalize_some hv
        rw [n1, n2, Option.bind_some, Option.bind_some, cross_smul_smul, e]
        have : ((c1 * c2) • (0 : V3 ℝ)) = 0 := by ext <;> simp
        rw [this, normalize_zero, Option.map_none]
  simp only [frameOfPlane, List.getElem?_cons_zero, Option.bind_some, List.length_cons, List.length_nil]
  rw [show (0 + 1 + 1 + 1) / 2 = 1 by rfl]
  simp only [List.getElem?_cons_succ, List.getElem?_cons_zero, Option.bind_some, hs, Option.map_none]

theorem planarInds_some {coords : List (V3 ℝ)} (h : coords ≠ []) : ∃ t, planarInds coords = some t ∧
    coords[0]? = some t.1 ∧ t.2.1 ∈ coords ∧ t.2.2 ∈ coords := by
  obtain ⟨a, ha⟩ : ∃ a, coords[0]? = some a := by
    cases coords with
    | nil => exact absurd rfl h
    | cons a l => exact ⟨a, rfl⟩
  have am : ∀ l : List ℝ, l ≠ [] → ∃ i, argmax l = some i ∧ i < l.length := by
    intro l hl
    obtain ⟨j, x, h1, h2, h3, -⟩ := argmaxFrom_spec l 0 hl
    exact ⟨j, by rw [argmax, h1, Option.map_some], by
      rw [Nat.sub_zero] at h3
      exact (List.getElem?_eq_some_iff.1 h3).1⟩
  obtain ⟨iB, hB1, hB2⟩ := am (distancesFrom coords a) (by simpa [distancesFrom] using h)
  have hB3 : iB < coords.length := by simpa [distancesFrom] using hB2
  obtain ⟨iC, hC1, hC2⟩ := am (List.zipWith (fun x y => x + y) (distancesFrom coords a) (distancesFrom coords coords[iB]))
    (by
      intro hz
      have := congrArg List.length hz
      simp [distancesFrom] at this
      exact h this)
  have hC3 : iC < coords.length := by simpa [distancesFrom] using hC2
  refine ⟨(a, coords[iB], coords[iC]), ?_, ha, List.getElem_mem hB3, List.getElem_mem hC3⟩
  rw [planarInds, ha, Option.bind_some, hB1, Option.bind_some, List.getElem?_eq_getElem hB3, Option.bind_some, hC1,
    Option.bind_some, List.getElem?_eq_getElem hC3, Option.map_some]

/-- **C66** `is_planar` is false for all points of a plane that does not contain the origin. -/
theorem C66_planar_false {coords : List (V3 ℝ)} (h : 2 ≤ coords.length) {n : V3 ℝ} {d : ℝ} (hd : d ≠ 0)
    (hp : ∀ p ∈ coords, dot n p = d) : ∃ P, isPlanar coords 0 = some P ∧ ¬ P := by
  obtain ⟨⟨a, b, c⟩, h1, h2, h3, h4⟩ := planarInds_some (coords := coords) (by rintro rfl; simp at h)
  rw [isPlanar, h1, Option.map_some]
  refine ⟨_, rfl, ?_⟩
  by_cases hx : cross (b - a) (c - a) = 0
  · rw [frameOfPlane3_none hx]; simp
  · obtain ⟨g, F, e1, e2, e3⟩ := frameOfPlane3 hx
    rw [e1]
    simp only
    rintro ⟨-, hP⟩
    obtain ⟨hu, hv⟩ := along_perp e3
    obtain ⟨c', hc', e3⟩ := e3
    have p1 := hp a (List.mem_of_getElem? h2)
    have p2 := hp b h3
    have p3 := hp c h4
    have nu : dot n (b - a) = 0 := by simp only [dot, sub_x, sub_y, sub_z] at p1 p2 ⊢; linarith
    have nv : dot n (c - a) = 0 := by simp only [dot, sub_x, sub_y, sub_z] at p1 p3 ⊢; linarith
    -- `n` is a multiple of the normal of the frame
    have hcr : cross F.k n = 0 := by
      rw [e3]
      simp only [dot] at nu nv
      ext <;> simp only [cross, smul_x, smul_y, smul_z, zero_x, zero_y, zero_z]
      · linear_combination c' * ((c - a).x * nu - (b - a).x * nv)
      · linear_combination c' * ((c - a).y * nu - (b - a).y * nv)
      · linear_combination c' * ((c - a).z * nu - (b - a).z * nv)
    have hnk := eq_smul_of_cross e2.kk hcr
    generalize dot F.k n = w at hnk
    cases coords with
    | nil => simp at h
    | cons x l => cases l with
      | nil => simp at h
      | cons y l =>
        have hy := hP y (by simp)
        have hy' := hp y (by simp)
        have : dot y F.k = 0 := abs_eq_zero.1 (le_antisymm hy (abs_nonneg _))
        apply hd
        rw [← hy', hnk]
        simp only [dot, smul_x, smul_y, smul_z] at this ⊢
        linear_combination w * this

/-- **C66** what holds of `is_planar`: if the first point is the origin and the three chosen points are not on a line, the answer
is yes exactly if all points are in one plane. Missing: other first points (`C66_planar_false`), and clouds for which
the chosen points are on a line although others are not (`C66_planar_collinear_false`). -/
theorem C66_planar_partial {coords : List (V3 ℝ)} {t : V3 ℝ × V3 ℝ × V3 ℝ} (h : planarInds coords = some t)
    (h0 : coords.head? = some 0) (hx : cross (t.2.1 - t.1) (t.2.2 - t.1) ≠ 0) :
    ∃ P, isPlanar coords 0 = some P ∧ (P ↔ ∃ (n : V3 ℝ) (d : ℝ), n ≠ 0 ∧ ∀ p ∈ coords, dot n p = d) := by
  obtain ⟨t', h1, h2, h3, h4⟩ := planarInds_some (coords := coords) (by rintro rfl; simp at h0)
  rw [h] at h1
  cases Option.some.inj h1
  obtain ⟨a, b, c⟩ := t
  rw [List.head?_eq_getElem?, h2] at h0
  have h0 : a = 0 := Option.some.inj h0
  subst h0
  obtain ⟨g, F, e1, e2, e3⟩ := frameOfPlane3 hx
  simp only at e1 e3 h2 h3 h4
  rw [isPlanar, h, Option.map_some]
  simp only [e1]
  refine ⟨_, rfl, ⟨?_, ?_⟩⟩
  · rintro ⟨-, hP⟩
    refine ⟨F.k, 0, ?_, fun p hp => ?_⟩
    · intro hz
      have := e2.kk
      rw [hz] at this
      simp [dot] at this
    · cases coords with
      | nil => simp at h2
      | cons x l =>
        rcases List.mem_cons.1 hp with rfl | hp
        · cases Option.some.inj h2
          simp [dot]
        · have := abs_eq_zero.1 (le_antisymm (hP p hp) (abs_nonneg _))
          rw [← this]; simp only [dot]; ring
  · rintro ⟨n, d, hn, hp⟩
    have p1 := hp 0 (List.mem_of_getElem? h2)
    have hd : d = 0 := by rw [← p1]; simp [dot]
    subst hd
    have p2 := hp b h3
    have p3 := hp c h4
    have hb0 : b - 0 = b := by ext <;> simp
    have hc0 : c - 0 = c := by ext <;> simp
    rw [hb0, hc0] at e3
    obtain ⟨c', hc', e3⟩ := e3
    have hcr : cross F.k n = 0 := by
      rw [e3]
      simp only [dot] at p2 p3
      ext <;> simp only [cross, smul_x, smul_y, smul_z, zero_x, zero_y, zero_z]
      · linear_combination c' * (c.x * p2 - b.x * p3)
      · linear_combination c' * (c.y * p2 - b.y * p3)
      · linear_combination c' * (c.z * p2 - b.z * p3)
    have hnk := eq_smul_of_cross e2.kk hcr
    have hw : dot F.k n ≠ 0 := by
      intro hw
      rw [hw] at hnk
      apply hn
      rw [hnk]; ext <;> simp
    refine ⟨le_refl _, fun p hp' => ?_⟩
    have := hp p (List.mem_of_mem_tail hp')
    rw [hnk] at this
    have h5 : dot F.k n * dot p F.k = 0 := by
      rw [← this]; simp only [dot, smul_x, smul_y, smul_z]; ring
    rcases mul_eq_zero.1 h5 with h5 | h5
    · exact absurd h5 hw
    · rw [h5, abs_zero]

theorem vnorm_eq {v : V3 ℝ} {r : ℝ} (h0 : 0 ≤ r) (h : dot v v = r ^ 2) : vnorm v = r := by
  rw [vnorm, h, Real.sqrt_sq h0]

theorem dist_eval (p q : V3 ℝ) {r : ℝ} (h0 : 0 ≤ r)
    (h : (p.x - q.x) * (p.x - q.x) + (p.y - q.y) * (p.y - q.y) + (p.z - q.z) * (p.z - q.z) = r ^ 2) : vnorm (p - q) = r :=
  vnorm_eq h0 (by simpa only [dot, sub_x, sub_y, sub_z] using h)

/-- The points chosen for three corners of a triangle, a case of `C66_planar_partial`. -/
example : planarInds [⟨0, 0, 0⟩, ⟨4, 0, 0⟩, ⟨0, 3, 0⟩] = some (⟨0, 0, 0⟩, ⟨4, 0, 0⟩, ⟨0, 3, 0⟩) ∧
    cross ((⟨4, 0, 0⟩ : V3 ℝ) - ⟨0, 0, 0⟩) (⟨0, 3, 0⟩ - ⟨0, 0, 0⟩) ≠ 0 := by
  constructor
  · have dA : distancesFrom [⟨0, 0, 0⟩, ⟨4, 0, 0⟩, ⟨0, 3, 0⟩] ⟨0, 0, 0⟩ = [0, 4, 3] := by
      simp only [distancesFrom, List.map_cons, List.map_nil]
      rw [dist_eval ⟨0, 0, 0⟩ ⟨0, 0, 0⟩ (r := 0) (by norm_num) (by norm_num),
        dist_eval ⟨4, 0, 0⟩ ⟨0, 0, 0⟩ (r := 4) (by norm_num) (by norm_num),
        dist_eval ⟨0, 3, 0⟩ ⟨0, 0, 0⟩ (r := 3) (by norm_num) (by norm_num)]
    have dB : distancesFrom [⟨0, 0, 0⟩, ⟨4, 0, 0⟩, ⟨0, 3, 0⟩] ⟨4, 0, 0⟩ = [4, 0, 5] := by
      simp only [distancesFrom, List.map_cons, List.map_nil]
      rw [dist_eval ⟨0, 0, 0⟩ ⟨4, 0, 0⟩ (r := 4) (by norm_num) (by norm_num),
        dist_eval ⟨4, 0, 0⟩ ⟨4, 0, 0⟩ (r := 0) (by norm_num) (by norm_num),
        dist_eval ⟨0, 3, 0⟩ ⟨4, 0, 0⟩ (r := 5) (by norm_num) (by norm_num)]
    have a1 : argmax [(0 : ℝ), 4, 3] = some 1 := by simp [argmax, argmaxFrom]; norm_num
    have a2 : argmax (List.zipWith (fun x y => x + y) [(0 : ℝ), 4, 3] [4, 0, 5]) = some 2 := by
      simp [argmax, argmaxFrom]; norm_num
    simp only [planarInds, List.getElem?_cons_zero, Option.bind_some, dA, a1, List.getElem?_cons_succ, dB, a2,
      Option.map_some]
  · intro h
    have := congrArg V3.z h
    simp [cross] at this

/-- **C66** `is_planar` is false for the points of the plane `z = 0` below: the three chosen points are on a line. -/
theorem C66_planar_collinear_false :
    ∃ P, isPlanar [⟨0, 0, 0⟩, ⟨12, 0, 0⟩, ⟨-11, 0, 0⟩, ⟨0, 5, 0⟩] 0 = some P ∧ ¬ P := by
  have dA : distancesFrom [⟨0, 0, 0⟩, ⟨12, 0, 0⟩, ⟨-11, 0, 0⟩, ⟨0, 5, 0⟩] ⟨0, 0, 0⟩ = [0, 12, 11, 5] := by
    simp only [distancesFrom, List.map_cons, List.map_nil]
    rw [dist_eval ⟨0, 0, 0⟩ ⟨0, 0, 0⟩ (r := 0) (by norm_num) (by norm_num),
      dist_eval ⟨12, 0, 0⟩ ⟨0, 0, 0⟩ (r := 12) (by norm_num) (by norm_num),
      dist_eval ⟨-11, 0, 0⟩ ⟨0, 0, 0⟩ (r := 11) (by norm_num) (by norm_num),
      dist_eval ⟨0, 5, 0⟩ ⟨0, 0, 0⟩ (r := 5) (by norm_num) (by norm_num)]
  have dB : distancesFrom [⟨0, 0, 0⟩, ⟨12, 0, 0⟩, ⟨-11, 0, 0⟩, ⟨0, 5, 0⟩] ⟨12, 0, 0⟩ = [12, 0, 23, 13] := by
    simp only [distancesFrom, List.map_cons, List.map_nil]
    rw [dist_eval ⟨0, 0, 0⟩ ⟨12, 0, 0⟩ (r := 12) (by norm_num) (by norm_num),
      dist_eval ⟨12, 0, 0⟩ ⟨12, 0, 0⟩ (r := 0) (by norm_num) (by norm_num),
      dist_eval ⟨-11, 0, 0⟩ ⟨12, 0, 0⟩ (r := 23) (by norm_num) (by norm_num),
      dist_eval ⟨0, 5, 0⟩ ⟨12, 0, 0⟩ (r := 13) (by norm_num) (by norm_num)]
  have a1 : argmax [(0 : ℝ), 12, 11, 5] = some 1 := by simp [argmax, argmaxFrom]; norm_num
  have a2 : argmax (List.zipWith (fun x y => x + y) [(0 : ℝ), 12, 11, 5] [12, 0, 23, 13]) = some 2 := by
    simp [argmax, argmaxFrom]; norm_num
  simp only [isPlanar, planarInds, List.getElem?_cons_zero, Option.bind_some, dA, a1, List.getElem?_cons_succ, dB, a2,
      Option.map_some]
  rw [frameOfPlane3_none (by ext <;> simp [cross])]
  exact ⟨_, rfl, by simp⟩

end PM
