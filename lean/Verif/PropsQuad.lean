import Verif.Quadrature
import Mathlib.Analysis.SpecialFunctions.Integrals.Basic
import Mathlib.MeasureTheory.Integral.IntervalIntegral.Basic

/-!
# C37: quadrature rules
-/

namespace PM

open intervalIntegral

/-! ## specification -/

/-- The integral over the master triangle. -/
noncomputable def triInt (f : V3 ℝ → ℝ) : ℝ := ∫ r in (0 : ℝ)..1, ∫ s in (0 : ℝ)..(1 - r), f ⟨r, s, 0⟩

/-- The integral over the master tetrahedron. -/
noncomputable def tetInt (f : V3 ℝ → ℝ) : ℝ :=
  ∫ r in (0 : ℝ)..1, ∫ s in (0 : ℝ)..(1 - r), ∫ t in (0 : ℝ)..(1 - r - s), f ⟨r, s, t⟩

/-- The integral over the master wedge. -/
noncomputable def wedgeInt (f : V3 ℝ → ℝ) : ℝ :=
  ∫ r in (0 : ℝ)..1, ∫ s in (0 : ℝ)..(1 - r), ∫ t in (-1 : ℝ)..1, f ⟨r, s, t⟩

/-- The integral over the master hexahedron. -/
noncomputable def hexInt (f : V3 ℝ → ℝ) : ℝ :=
  ∫ r in (-1 : ℝ)..1, ∫ s in (-1 : ℝ)..1, ∫ t in (-1 : ℝ)..1, f ⟨r, s, t⟩

/-- A term of a polynomial: coefficient and exponents. -/
structure Term where
  c : ℝ
  i : Nat
  j : Nat
  k : Nat

/-- The value of a polynomial given by its terms. -/
noncomputable def polyVal (l : List Term) (x : V3 ℝ) : ℝ := (l.map fun m => m.c * (x.x ^ m.i * x.y ^ m.j * x.z ^ m.k)).sum

/-- What a rule makes of a function. -/
noncomputable def quad (rule : List QP) (f : V3 ℝ → ℝ) : ℝ := (rule.map fun q => q.w * f q.p).sum

/-- A rule is exact for the polynomials all of whose terms have exponents in `P`. -/
def ExactFor (I : (V3 ℝ → ℝ) → ℝ) (P : Nat → Nat → Nat → Prop) (rule : List QP) : Prop :=
  ∀ l : List Term, (∀ m ∈ l, P m.i m.j m.k) → quad rule (polyVal l) = I (polyVal l)

/-- A rule on the interval [-1, 1] is exact up to degree `d`. -/
def LineExact (d : Nat) (line : List (ℝ × ℝ)) : Prop :=
  ∀ k ≤ d, (line.map fun q => q.2 * q.1 ^ k).sum = ∫ t in (-1 : ℝ)..1, t ^ k

/-! ## moments -/

theorem integral_list_sum {α : Type} (l : List α) (f : α → ℝ → ℝ) (a b : ℝ) (h : ∀ m ∈ l, Continuous (f m)) :
    (∫ x in a..b, (l.map fun m => f m x).sum) = (l.map fun m => ∫ x in a..b, f m x).sum := by
  induction l with
  | nil => simp
  | cons m l ih =>
    have hl : Continuous fun x => (l.map fun m => f m x).sum := by
      apply continuous_list_sum
      intro m hm
      exact h m (List.mem_cons_of_mem _ hm)
    simp only [List.map_cons, List.sum_cons]
    rw [intervalIntegral.integral_add ((h m List.mem_cons_self).intervalIntegrable a b) (hl.intervalIntegrable a b),
      ih fun m hm => h m (List.mem_cons_of_mem _ hm)]

/-- The beta integral. -/
theorem beta_int (a : ℝ) (j k : Nat) :
    (∫ s in (0 : ℝ)..a, s ^ j * (a - s) ^ k) = a ^ (j + k + 1) * ((j.factorial * k.factorial : ℕ) : ℝ) / ((j + k + 1).factorial : ℝ) := by
  induction k generalizing j with
  | zero =>
    simp only [pow_zero, mul_one, Nat.factorial_zero, Nat.add_zero, integral_pow]
    rw [Nat.factorial_succ]
    have : (j.factorial : ℝ) ≠ 0 := by exact_mod_cast Nat.factorial_ne_zero j
    have : ((j : ℝ) + 1) ≠ 0 := by positivity
    push_cast
    rw [zero_pow (by omega)]
    field_simp
    ring
  | succ k ih =>
    have e : (∫ s in (0 : ℝ)..a, s ^ j * (a - s) ^ (k + 1)) =
        a * (∫ s in (0 : ℝ)..a, s ^ j * (a - s) ^ k) - ∫ s in (0 : ℝ)..a, s ^ (j + 1) * (a - s) ^ k := by
      rw [← intervalIntegral.integral_const_mul, ← intervalIntegral.integral_sub]
      · congr 1; funext s; ring
      · apply Continuous.intervalIntegrable; fun_prop
      · apply Continuous.intervalIntegrable; fun_prop
    rw [e, ih, ih]
    have h1 : ((j + k + 1).factorial : ℝ) ≠ 0 := by exact_mod_cast Nat.factorial_ne_zero _
    rw [show j + 1 + k + 1 = (j + k + 1) + 1 by ring, show j + (k + 1) + 1 = (j + k + 1) + 1 by ring,
      Nat.factorial_succ (j + k + 1), Nat.factorial_succ j, Nat.factorial_succ k]
    have h2 : (((j + k + 1 : ℕ) : ℝ) + 1) ≠ 0 := by positivity
    push_cast at h2 ⊢
    field_simp
    ring

/-- Moments of the triangle. -/
noncomputable def triMom (i j k : Nat) : ℝ :=
  if k = 0 then ((i.factorial * j.factorial : ℕ) : ℝ) / ((i + j + 2).factorial : ℝ) else 0

/-- Moments of the tetrahedron. -/
noncomputable def tetMom (i j k : Nat) : ℝ :=
  ((i.factorial * j.factorial * k.factorial : ℕ) : ℝ) / ((i + j + k + 3).factorial : ℝ)

/-- Moments of the interval. -/
noncomputable def lineMom (k : Nat) : ℝ := ∫ t in (-1 : ℝ)..1, t ^ k

theorem lineMom_eq (k : Nat) : lineMom k = (1 - (-1) ^ (k + 1)) / (k + 1) := by
  rw [lineMom, integral_pow, one_pow]

theorem tri_inner (i j : Nat) : (∫ r in (0 : ℝ)..1, r ^ i * ((1 - r) ^ (j + 1) / (j + 1))) =
    ((i.factorial * j.factorial : ℕ) : ℝ) / ((i + j + 2).factorial : ℝ) := by
  have e : (∫ r in (0 : ℝ)..1, r ^ i * ((1 - r) ^ (j + 1) / (j + 1))) =
      (∫ r in (0 : ℝ)..1, r ^ i * (1 - r) ^ (j + 1)) / (j + 1) := by
    rw [← intervalIntegral.integral_div]
    congr 1; funext r; ring
  rw [e, beta_int, one_pow, Nat.factorial_succ j, show i + (j + 1) + 1 = i + j + 2 by ring]
  have h1 : ((i + j + 2).factorial : ℝ) ≠ 0 := by exact_mod_cast Nat.factorial_ne_zero _
  have h2 : ((j : ℝ) + 1) ≠ 0 := by positivity
  push_cast
  field_simp

theorem triInt_poly (l : List Term) : triInt (polyVal l) = (l.map fun m => m.c * triMom m.i m.j m.k).sum := by
  unfold triInt polyVal
  have e1 : ∀ r : ℝ, (∫ s in (0 : ℝ)..(1 - r), (l.map fun m => m.c * (r ^ m.i * s ^ m.j * (0 : ℝ) ^ m.k)).sum) =
      (l.map fun m => m.c * (0 : ℝ) ^ m.k * (r ^ m.i * ((1 - r) ^ (m.j + 1) / (m.j + 1)))).sum := by
    intro r
    rw [integral_list_sum]
    · congr 1
      apply List.map_congr_left
      intro m _
      have : (∫ s in (0 : ℝ)..(1 - r), m.c * (r ^ m.i * s ^ m.j * (0 : ℝ) ^ m.k)) =
          m.c * (0 : ℝ) ^ m.k * (r ^ m.i * ∫ s in (0 : ℝ)..(1 - r), s ^ m.j) := by
        rw [← intervalIntegral.integral_const_mul, ← intervalIntegral.integral_const_mul]
        congr 1; funext s; ring
      rw [this, integral_pow, zero_pow (Nat.succ_ne_zero m.j), sub_zero]
    · intro m _; fun_prop
  simp only [e1]
  rw [integral_list_sum]
  · congr 1
    apply List.map_congr_left
    intro m _
    rw [intervalIntegral.integral_const_mul, tri_inner, triMom]
    by_cases h : m.k = 0
    · rw [if_pos h, h]; ring
    · rw [if_neg h, zero_pow h]; ring
  · intro m _; fun_prop

theorem tetInt_poly (l : List Term) : tetInt (polyVal l) = (l.map fun m => m.c * tetMom m.i m.j m.k).sum := by
  unfold tetInt polyVal
  have e1 : ∀ r s : ℝ, (∫ t in (0 : ℝ)..(1 - r - s), (l.map fun m => m.c * (r ^ m.i * s ^ m.j * t ^ m.k)).sum) =
      (l.map fun m => m.c * (r ^ m.i * s ^ m.j * ((1 - r - s) ^ (m.k + 1) / (m.k + 1)))).sum := by
    intro r s
    rw [integral_list_sum]
    · congr 1
      apply List.map_congr_left
      intro m _
      have : (∫ t in (0 : ℝ)..(1 - r - s), m.c * (r ^ m.i * s ^ m.j * t ^ m.k)) =
          m.c * (r ^ m.i * s ^ m.j * ∫ t in (0 : ℝ)..(1 - r - s), t ^ m.k) := by
        rw [← intervalIntegral.integral_const_mul, ← intervalIntegral.integral_const_mul]
      rw [this, integral_pow, zero_pow (by omega), sub_zero]
    · intro m _; fun_prop
  simp only [e1]
  have e2 : ∀ r : ℝ, (∫ s in (0 : ℝ)..(1 - r), (l.map fun m => m.c * (r ^ m.i * s ^ m.j * ((1 - r - s) ^ (m.k + 1) / (m.k + 1)))).sum) =
      (l.map fun m => m.c * ((m.j.factorial * m.k.factorial : ℕ) / ((m.j + m.k + 2).factorial : ℝ) *
        (r ^ m.i * (1 - r) ^ (m.j + m.k + 2)))).sum := by
    intro r
    rw [integral_list_sum]
    · congr 1
      apply List.map_congr_left
      intro m _
      have : (∫ s in (0 : ℝ)..(1 - r), m.c * (r ^ m.i * s ^ m.j * ((1 - r - s) ^ (m.k + 1) / (m.k + 1)))) =
          m.c * r ^ m.i / (m.k + 1) * ∫ s in (0 : ℝ)..(1 - r), s ^ m.j * (1 - r - s) ^ (m.k + 1) := by
        rw [← intervalIntegral.integral_const_mul]
        congr 1; funext s; ring
      rw [this, beta_int, Nat.factorial_succ m.k, show m.j + (m.k + 1) + 1 = m.j + m.k + 2 by ring]
      have h1 : ((m.j + m.k + 2).factorial : ℝ) ≠ 0 := by exact_mod_cast Nat.factorial_ne_zero _
      have h2 : ((m.k : ℝ) + 1) ≠ 0 := by positivity
      push_cast
      field_simp
    · intro m _; fun_prop
  simp only [e2]
  rw [integral_list_sum]
  · congr 1
    apply List.map_congr_left
    intro m _
    rw [intervalIntegral.integral_const_mul, intervalIntegral.integral_const_mul, beta_int, one_pow, tetMom,
      show m.i + (m.j + m.k + 2) + 1 = m.i + m.j + m.k + 3 by ring]
    have h1 : ((m.j + m.k + 2).factorial : ℝ) ≠ 0 := by exact_mod_cast Nat.factorial_ne_zero _
    have h3 : ((m.i + m.j + m.k + 3).factorial : ℝ) ≠ 0 := by exact_mod_cast Nat.factorial_ne_zero _
    push_cast
    field_simp
  · intro m _; fun_prop

theorem wedgeInt_poly (l : List Term) : wedgeInt (polyVal l) = (l.map fun m => m.c * (triMom m.i m.j 0 * lineMom m.k)).sum := by
  unfold wedgeInt polyVal
  have e1 : ∀ r s : ℝ, (∫ t in (-1 : ℝ)..1, (l.map fun m => m.c * (r ^ m.i * s ^ m.j * t ^ m.k)).sum) =
      (l.map fun m => m.c * lineMom m.k * (r ^ m.i * s ^ m.j)).sum := by
    intro r s
    rw [integral_list_sum]
    · congr 1
      apply List.map_congr_left
      intro m _
      have : (∫ t in (-1 : ℝ)..1, m.c * (r ^ m.i * s ^ m.j * t ^ m.k)) =
          m.c * (r ^ m.i * s ^ m.j) * ∫ t in (-1 : ℝ)..1, t ^ m.k := by
        rw [← intervalIntegral.integral_const_mul]
        congr 1; funext t; ring
      rw [this, lineMom]; ring
    · intro m _; fun_prop
  simp only [e1]
  have := triInt_poly (l.map fun m => ⟨m.c * lineMom m.k, m.i, m.j, 0⟩)
  simp only [triInt, polyVal, List.map_map, Function.comp_def, pow_zero, mul_one] at this
  rw [this]
  congr 1
  apply List.map_congr_left
  intro m _
  ring

theorem hexInt_poly (l : List Term) : hexInt (polyVal l) = (l.map fun m => m.c * (lineMom m.i * lineMom m.j * lineMom m.k)).sum := by
  unfold hexInt polyVal
  have e1 : ∀ r s : ℝ, (∫ t in (-1 : ℝ)..1, (l.map fun m => m.c * (r ^ m.i * s ^ m.j * t ^ m.k)).sum) =
      (l.map fun m => m.c * lineMom m.k * (r ^ m.i * s ^ m.j)).sum := by
    intro r s
    rw [integral_list_sum]
    · congr 1
      apply List.map_congr_left
      intro m _
      have : (∫ t in (-1 : ℝ)..1, m.c * (r ^ m.i * s ^ m.j * t ^ m.k)) =
          m.c * (r ^ m.i * s ^ m.j) * ∫ t in (-1 : ℝ)..1, t ^ m.k := by
        rw [← intervalIntegral.integral_const_mul]
        congr 1; funext t; ring
      rw [this, lineMom]; ring
    · intro m _; fun_prop
  simp only [e1]
  have e2 : ∀ r : ℝ, (∫ s in (-1 : ℝ)..1, (l.map fun m => m.c * lineMom m.k * (r ^ m.i * s ^ m.j)).sum) =
      (l.map fun m => m.c * lineMom m.j * lineMom m.k * r ^ m.i).sum := by
    intro r
    rw [integral_list_sum]
    · congr 1
      apply List.map_congr_left
      intro m _
      have : (∫ s in (-1 : ℝ)..1, m.c * lineMom m.k * (r ^ m.i * s ^ m.j)) =
          m.c * lineMom m.k * r ^ m.i * ∫ s in (-1 : ℝ)..1, s ^ m.j := by
        rw [← intervalIntegral.integral_const_mul]
        congr 1; funext t; ring
      rw [this]; simp only [lineMom]; ring
    · intro m _; fun_prop
  simp only [e2]
  rw [integral_list_sum]
  · congr 1
    apply List.map_congr_left
    intro m _
    rw [intervalIntegral.integral_const_mul]; simp only [lineMom]; ring
  · intro m _; fun_prop

/-- A rule with the right moments is exact. -/
theorem exact_of_moments {I : (V3 ℝ → ℝ) → ℝ} {mom : Nat → Nat → Nat → ℝ} {P : Nat → Nat → Nat → Prop} {rule : List QP}
    (hI : ∀ l, I (polyVal l) = (l.map fun m => m.c * mom m.i m.j m.k).sum)
    (h : ∀ i j k, P i j k → quad rule (fun x => x.x ^ i * x.y ^ j * x.z ^ k) = mom i j k) : ExactFor I P rule := by
  intro l hl
  rw [hI]
  induction l with
  | nil => simp [quad, polyVal]
  | cons m l ih =>
    have e : quad rule (polyVal (m :: l)) = m.c * quad rule (fun x => x.x ^ m.i * x.y ^ m.j * x.z ^ m.k) + quad rule (polyVal l) := by
      simp only [quad, polyVal, List.map_cons, List.sum_cons]
      clear ih h
      induction rule with
      | nil => simp
      | cons q rule ih =>
        simp only [List.map_cons, List.sum_cons]
        rw [ih]; ring
    rw [e, ih fun x hx => hl x (List.mem_cons_of_mem _ hx), h _ _ _ (hl m List.mem_cons_self)]
    simp

/-! ## C37 -/

/-- In the master triangle (closed). -/
def InMasterTri (x : V3 ℝ) : Prop := 0 ≤ x.x ∧ 0 ≤ x.y ∧ x.x + x.y ≤ 1 ∧ x.z = 0

/-- In the master tetrahedron (closed). -/
def InMasterTet (x : V3 ℝ) : Prop := 0 ≤ x.x ∧ 0 ≤ x.y ∧ 0 ≤ x.z ∧ x.x + x.y + x.z ≤ 1

/-- In the master wedge (closed). -/
def InMasterWedge (x : V3 ℝ) : Prop := 0 ≤ x.x ∧ 0 ≤ x.y ∧ x.x + x.y ≤ 1 ∧ -1 ≤ x.z ∧ x.z ≤ 1

/-- Total degree at most `d`. -/
abbrev TotalDeg (d : Nat) (i j k : Nat) : Prop := i + j + k ≤ d

/-- **C37** one point in a triangle: degree 1. -/
theorem C37_Tri_1 : ExactFor triInt (TotalDeg 1) gaussTri1 ∧ ∀ q ∈ gaussTri1, InMasterTri q.p := by
  constructor
  · apply exact_of_moments triInt_poly
    intro i j k h
    unfold TotalDeg at h
    have : i ≤ 1 := by omega
    have : j ≤ 1 := by omega
    have : k ≤ 1 := by omega
    interval_cases i <;> interval_cases j <;> interval_cases k <;> first | omega |
      (simp [quad, gaussTri1, triMom, Nat.factorial]; try norm_num)
  · simp [gaussTri1, InMasterTri]; norm_num

/-- **C37** three points in a triangle: degree 2. -/
theorem C37_Tri_3a : ExactFor triInt (TotalDeg 2) gaussTri3a ∧ ∀ q ∈ gaussTri3a, InMasterTri q.p := by
  constructor
  · apply exact_of_moments triInt_poly
    intro i j k h
    unfold TotalDeg at h
    have : i ≤ 2 := by omega
    have : j ≤ 2 := by omega
    have : k ≤ 2 := by omega
    interval_cases i <;> interval_cases j <;> interval_cases k <;> first | omega |
      (simp [quad, gaussTri3a, triMom, Nat.factorial]; try norm_num)
  · simp [gaussTri3a, InMasterTri]; norm_num

/-- **C37** three points on the edges of a triangle: degree 2. -/
theorem C37_Tri_3b : ExactFor triInt (TotalDeg 2) gaussTri3b ∧ ∀ q ∈ gaussTri3b, InMasterTri q.p := by
  constructor
  · apply exact_of_moments triInt_poly
    intro i j k h
    unfold TotalDeg at h
    have : i ≤ 2 := by omega
    have : j ≤ 2 := by omega
    have : k ≤ 2 := by omega
    interval_cases i <;> interval_cases j <;> interval_cases k <;> first | omega |
      (simp [quad, gaussTri3b, triMom, Nat.factorial]; try norm_num)
  · simp [gaussTri3b, InMasterTri]; norm_num

/-- **C37** one point in a tetrahedron: degree 1. -/
theorem C37_Tet_1 : ExactFor tetInt (TotalDeg 1) gaussTet1 ∧ ∀ q ∈ gaussTet1, InMasterTet q.p := by
  constructor
  · apply exact_of_moments tetInt_poly
    intro i j k h
    unfold TotalDeg at h
    have : i ≤ 1 := by omega
    have : j ≤ 1 := by omega
    have : k ≤ 1 := by omega
    interval_cases i <;> interval_cases j <;> interval_cases k <;> first | omega |
      (simp [quad, gaussTet1, tetMom, Nat.factorial]; try norm_num)
  · simp [gaussTet1, InMasterTet]; norm_num

theorem tet4_facts : tet4a + 3 * tet4b = 1 ∧ tet4a * tet4a + 3 * (tet4b * tet4b) = 2 / 5 ∧
    2 * (tet4a * tet4b) + 2 * (tet4b * tet4b) = 1 / 5 ∧ 0 ≤ tet4a ∧ 0 ≤ tet4b := by
  have h5 : Real.sqrt 5 * Real.sqrt 5 = 5 := Real.mul_self_sqrt (by norm_num)
  have h0 : 0 ≤ Real.sqrt 5 := Real.sqrt_nonneg 5
  have h1 : Real.sqrt 5 ≤ 5 := by nlinarith
  refine ⟨?_, ?_, ?_, ?_, ?_⟩
  · unfold tet4a tet4b; ring
  · unfold tet4a tet4b; nlinarith
  · unfold tet4a tet4b; nlinarith
  · unfold tet4a; positivity
  · unfold tet4b; apply div_nonneg; linarith; norm_num

/-- **C37** four points in a tetrahedron: degree 2. -/
theorem C37_Tet_4 : ExactFor tetInt (TotalDeg 2) gaussTet4 ∧ ∀ q ∈ gaussTet4, InMasterTet q.p := by
  obtain ⟨h1, h2, h3, ha, hb⟩ := tet4_facts
  constructor
  · apply exact_of_moments tetInt_poly
    intro i j k h
    unfold TotalDeg at h
    have : i ≤ 2 := by omega
    have : j ≤ 2 := by omega
    have : k ≤ 2 := by omega
    interval_cases i <;> interval_cases j <;> interval_cases k <;> first | omega |
      (simp [quad, gaussTet4, tetMom, Nat.factorial]; first | done | linarith)
  · have : tet4a + 2 * tet4b ≤ 1 := by linarith
    simp only [gaussTet4, List.mem_cons, List.not_mem_nil, or_false]
    rintro q (rfl | rfl | rfl | rfl) <;> exact ⟨by simpa, by simpa, by simpa, by simp only; linarith⟩

/-- **C37** five points in a tetrahedron: degree 3. -/
theorem C37_Tet_5 : ExactFor tetInt (TotalDeg 3) gaussTet5 ∧ ∀ q ∈ gaussTet5, InMasterTet q.p := by
  constructor
  · apply exact_of_moments tetInt_poly
    intro i j k h
    unfold TotalDeg at h
    have : i ≤ 3 := by omega
    have : j ≤ 3 := by omega
    have : k ≤ 3 := by omega
    interval_cases i <;> interval_cases j <;> interval_cases k <;> first | omega |
      (simp [quad, gaussTet5, tetMom, Nat.factorial]; try norm_num)
  · simp [gaussTet5, InMasterTet]; norm_num

/-- **C37** is false of the rule with eleven points: the first constant is wrong. It integrates constants, but not
linear functions, and has points outside the tetrahedron. -/
theorem C37_Tet_11_false : quad gaussTet11 (fun _ => 1) = tetInt (fun _ => 1) ∧
    quad gaussTet11 (fun x => x.x) ≠ tetInt (fun x => x.x) ∧ ∃ q ∈ gaussTet11, ¬ InMasterTet q.p := by
  have c1 : tetInt (fun _ => 1) = 1 / 6 := by
    have := tetInt_poly [⟨1, 0, 0, 0⟩]
    have hf : polyVal [⟨1, 0, 0, 0⟩] = fun _ => 1 := by funext x; simp [polyVal]
    rw [hf] at this
    simp [tetMom, Nat.factorial] at this
    rw [this]; norm_num
  have c2 : tetInt (fun x => x.x) = 1 / 24 := by
    have := tetInt_poly [⟨1, 1, 0, 0⟩]
    have hf : polyVal [⟨1, 1, 0, 0⟩] = fun x => x.x := by funext x; simp [polyVal]
    rw [hf] at this
    simp [tetMom, Nat.factorial] at this
    rw [this]; norm_num
  have hs1 : 1 / 2 < Real.sqrt (5 / 15) := by
    apply Real.lt_sqrt_of_sq_lt; norm_num
  have hs2 : Real.sqrt (5 / 14) < 3 / 5 := by
    rw [Real.sqrt_lt' (by norm_num)]; norm_num
  refine ⟨?_, ?_, ?_⟩
  · rw [c1]; simp [quad, gaussTet11]; norm_num
  · rw [c2]
    simp only [quad, gaussTet11, List.map_cons, List.map_nil, List.sum_cons, List.sum_nil]
    intro h
    have ha : 5 / 8 < tet11a := by unfold tet11a; linarith
    have hb : 1 / 10 < tet11b := by unfold tet11b; linarith
    nlinarith
  · refine ⟨⟨⟨tet11a, tet11a, tet11b⟩, 56 / 2250⟩, by simp [gaussTet11], ?_⟩
    rintro ⟨_, _, _, h⟩
    have ha : 5 / 8 < tet11a := by unfold tet11a; linarith
    have hb : 1 / 10 < tet11b := by unfold tet11b; linarith
    simp only at h
    linarith

/-- **C37** how wrong the rule with eleven points is: the integral of each coordinate is too large by the same number. -/
theorem C37_Tet_11_error_false : ∀ f ∈ [V3.x, V3.y, V3.z],
    quad gaussTet11 f = 1 / 24 + 7 / 375 * (3 * Real.sqrt (5 / 15) - Real.sqrt (5 / 14)) := by
  intro f hf
  simp only [List.mem_cons, List.not_mem_nil, or_false] at hf
  rcases hf with rfl | rfl | rfl <;>
  · simp only [quad, gaussTet11, List.map_cons, List.map_nil, List.sum_cons, List.sum_nil, tet11a, tet11b]
    ring

/-! ### products of rules -/

theorem quad_tri3a (i j : Nat) (h : i + j ≤ 2) :
    (gaussTri3a.map fun q => q.w * (q.p.x ^ i * q.p.y ^ j)).sum = triMom i j 0 := by
  have := C37_Tri_3a.1 [⟨1, i, j, 0⟩] (by simpa [TotalDeg] using h)
  rw [triInt_poly] at this
  simpa [quad, polyVal] using this

theorem sum_flatMap_map {α β : Type} (l : List α) (f : α → List β) (g : β → ℝ) :
    ((l.flatMap f).map g).sum = (l.map fun a => ((f a).map g).sum).sum := by
  induction l with
  | nil => simp
  | cons a l ih => simp [ih]

/-- **C37** the rule with three layers in a wedge, from a rule on the interval that is exact up to degree 5: exact for
degree 2 in the plane times degree 5 in height. -/
theorem C37_Wedge_3x3 {line : List (ℝ × ℝ)} (h : LineExact 5 line) (hin : ∀ q ∈ line, -1 ≤ q.1 ∧ q.1 ≤ 1) :
    ExactFor wedgeInt (fun i j k => i + j ≤ 2 ∧ k ≤ 5) (gaussWedge3x3 line) ∧
      ∀ q ∈ gaussWedge3x3 line, InMasterWedge q.p := by
  constructor
  · apply exact_of_moments (mom := fun i j k => triMom i j 0 * lineMom k) wedgeInt_poly
    rintro i j k ⟨hij, hk⟩
    rw [quad, gaussWedge3x3, sum_flatMap_map]
    have e : ∀ l ∈ line, ((gaussTri3a.map fun q => (⟨⟨q.p.x, q.p.y, l.1⟩, q.w * l.2⟩ : QP)).map fun q =>
        q.w * (q.p.x ^ i * q.p.y ^ j * q.p.z ^ k)).sum = triMom i j 0 * (l.2 * l.1 ^ k) := by
      intro l _
      rw [List.map_map, ← quad_tri3a i j hij, ← List.sum_map_mul_right]
      congr 1
      apply List.map_congr_left
      intro q _
      simp only [Function.comp_apply]
      ring
    rw [List.map_congr_left e, List.sum_map_mul_left, h k hk]
    rfl
  · intro q hq
    obtain ⟨l, hl, hq⟩ := List.mem_flatMap.1 hq
    obtain ⟨t, ht, rfl⟩ := List.mem_map.1 hq
    obtain ⟨h1, h2, h3, _⟩ := C37_Tri_3a.2 t ht
    exact ⟨h1, h2, h3, hin l hl⟩

/-- **C37** is false of the rule with two layers in a wedge, where both layers are at the same height: it fails for the
linear function `t`, whatever (symmetric) two-point rule is used in height. -/
theorem C37_Wedge_3x2_false {p : ℝ} (hp : p ≠ 0) (w : ℝ) (h : LineExact 3 [(p, w), (-p, w)]) :
    ∃ rule, gaussWedge3x2 [(p, w), (-p, w)] = some rule ∧ quad rule (fun x => x.z) ≠ wedgeInt (fun x => x.z) := by
  refine ⟨_, rfl, ?_⟩
  have hw : w = 1 := by
    have := h 0 (by omega)
    simp at this
    norm_num at this
    linarith
  have c : wedgeInt (fun x => x.z) = 0 := by
    have := wedgeInt_poly [⟨1, 0, 0, 1⟩]
    have hf : polyVal [⟨1, 0, 0, 1⟩] = fun x => x.z := by funext x; simp [polyVal]
    rw [hf] at this
    simpa [lineMom_eq] using this
  rw [c, hw]
  simp [quad, gaussTri3a]
  intro h0
  apply hp
  linarith

/-- **C37** the same rule does integrate functions that do not depend on height. -/
theorem C37_Wedge_3x2_partial {p0 p1 : ℝ × ℝ} (h : LineExact 0 [p0, p1]) :
    ∃ rule, gaussWedge3x2 [p0, p1] = some rule ∧ ExactFor wedgeInt (fun i j k => i + j ≤ 2 ∧ k = 0) rule := by
  refine ⟨_, rfl, ?_⟩
  apply exact_of_moments (mom := fun i j k => triMom i j 0 * lineMom k) wedgeInt_poly
  rintro i j k ⟨hij, rfl⟩
  have hw := h 0 (by omega)
  simp only [List.map_cons, List.map_nil, List.sum_cons, List.sum_nil, pow_zero, mul_one, add_zero] at hw
  have hl : lineMom 0 = p0.2 + p1.2 := by rw [hw, lineMom]; simp
  rw [hl, ← quad_tri3a i j hij]
  simp [quad, gaussTri3a]
  ring

/-- **C37** products of interval rules on hexahedra: exact in each direction to the degree of the rule used there. -/
theorem C37_Hex {lx ly lz : List (ℝ × ℝ)} {dx dy dz : Nat} (hx : LineExact dx lx) (hy : LineExact dy ly)
    (hz : LineExact dz lz) : ExactFor hexInt (fun i j k => i ≤ dx ∧ j ≤ dy ∧ k ≤ dz) (gaussHex lx ly lz) := by
  apply exact_of_moments (mom := fun i j k => lineMom i * lineMom j * lineMom k) hexInt_poly
  rintro i j k ⟨h1, h2, h3⟩
  rw [quad, gaussHex, sum_flatMap_map]
  have e : ∀ a ∈ lx, ((ly.flatMap fun b => lz.map fun c => (⟨⟨a.1, b.1, c.1⟩, a.2 * b.2 * c.2⟩ : QP)).map fun q =>
      q.w * (q.p.x ^ i * q.p.y ^ j * q.p.z ^ k)).sum = (a.2 * a.1 ^ i) * (lineMom j * lineMom k) := by
    intro a _
    rw [sum_flatMap_map]
    have e' : ∀ b ∈ ly, ((lz.map fun c => (⟨⟨a.1, b.1, c.1⟩, a.2 * b.2 * c.2⟩ : QP)).map fun q =>
        q.w * (q.p.x ^ i * q.p.y ^ j * q.p.z ^ k)).sum = (a.2 * a.1 ^ i * lineMom k) * (b.2 * b.1 ^ j) := by
      intro b _
      rw [List.map_map, lineMom, ← hz k h3, mul_assoc, ← List.sum_map_mul_right, ← List.sum_map_mul_left]
      congr 1
      apply List.map_congr_left
      intro c _
      simp only [Function.comp_apply]
      ring
    rw [List.map_congr_left e', List.sum_map_mul_left, hy j h2, lineMom, lineMom]
    ring
  rw [List.map_congr_left e, List.sum_map_mul_right, hx i h1]
  simp only [lineMom]
  ring

/-- The assumptions on the interval rule are met by Gauss' rule with two points. -/
example : LineExact 3 [(1 / Real.sqrt 3, 1), (-(1 / Real.sqrt 3), 1)] := by
  have h3 : Real.sqrt 3 * Real.sqrt 3 = 3 := Real.mul_self_sqrt (by norm_num)
  have h0 : Real.sqrt 3 ≠ 0 := by positivity
  have h2 : (1 / Real.sqrt 3) ^ 2 = 1 / 3 := by
    rw [div_pow, one_pow, sq, h3]
  generalize 1 / Real.sqrt 3 = p at h2
  intro k hk
  rw [integral_pow]
  have h3' : p ^ 3 = p / 3 := by rw [pow_succ, h2]; ring
  have h4 : (-p) ^ 3 = -(p ^ 3) := by ring
  interval_cases k
  · simp
  · simp
  · simp [h2]; norm_num
  · simp [h4]; norm_num

/-- The rule with three points, which is exact up to degree five and has its points in the interval. -/
example : LineExact 5 [(-Real.sqrt (3 / 5), 5 / 9), (0, 8 / 9), (Real.sqrt (3 / 5), 5 / 9)] ∧
    ∀ q ∈ [(-Real.sqrt (3 / 5), (5 : ℝ) / 9), (0, 8 / 9), (Real.sqrt (3 / 5), 5 / 9)], -1 ≤ q.1 ∧ q.1 ≤ 1 := by
  have h2 : Real.sqrt (3 / 5) ^ 2 = 3 / 5 := Real.sq_sqrt (by norm_num)
  have h0 : 0 ≤ Real.sqrt (3 / 5) := Real.sqrt_nonneg _
  generalize Real.sqrt (3 / 5) = p at h2 h0
  constructor
  · intro k hk
    rw [integral_pow]
    have h3 : p ^ 3 = p * (3 / 5) := by rw [pow_succ, h2]; ring
    have h4 : p ^ 4 = 9 / 25 := by rw [show p ^ 4 = (p ^ 2) ^ 2 by ring, h2]; norm_num
    interval_cases k
    · simp; norm_num
    · simp
    · simp [h2]; norm_num
    · have h : (-p) ^ 3 = -(p ^ 3) := by ring
      simp [h]; norm_num
    · have h : (-p) ^ 4 = p ^ 4 := by ring
      simp [h, h4]; norm_num
    · have h : (-p) ^ 5 = -(p ^ 5) := by ring
      simp [h]; norm_num
  · intro q hq
    simp only [List.mem_cons, List.not_mem_nil, or_false] at hq
    have h1 : p ≤ 1 := by nlinarith
    rcases hq with rfl | rfl | rfl <;> constructor <;> simp <;> linarith

end PM
