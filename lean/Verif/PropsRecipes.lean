import Verif.Recipes
import Verif.PropsTriang
import Verif.PropsTopo
import Verif.PropsExtrude
import Verif.PropsGridNamed
import Mathlib.Analysis.SpecialFunctions.Trigonometric.Deriv
import Mathlib.Analysis.SpecialFunctions.Trigonometric.Angle

/-!
# C74: helices. C76: disks and cylinders. C77: perforated cubes
-/

namespace PM

open V3

/-! ## C74 -/

/-- **C74** the curve lies on the cylinder of radius `a` around the third axis and rises by `2πb` with every turn. -/
theorem C74_curve {a b slope pitch : Option ℝ} {A B : ℝ} (h : helixParams a b slope pitch = some (A, B)) (t : ℝ) :
    ∃ p q, circularHelix a b slope pitch t = some p ∧ circularHelix a b slope pitch (t + 2 * Real.pi) = some q ∧
      p.x ^ 2 + p.y ^ 2 = A ^ 2 ∧ q.x = p.x ∧ q.y = p.y ∧ q.z - p.z = 2 * Real.pi * B := by
  refine ⟨_, _, by simp only [circularHelix, h, Option.map_some]; rfl, by simp only [circularHelix, h, Option.map_some]; rfl, ?_, ?_, ?_, ?_⟩
  · simp only [helixCurve, mul_pow, ← mul_add, Real.cos_sq_add_sin_sq, mul_one]
  · simp [helixCurve]
  · simp [helixCurve]
  · simp only [helixCurve]; ring

/-- **C74** the curve runs around the axis at the rate `a` and along it at the rate `b`. -/
theorem C74_speed (a b t : ℝ) :
    HasDerivAt (fun s => (helixCurve a b s).x) (-(a * Real.sin t)) t ∧ HasDerivAt (fun s => (helixCurve a b s).y) (a * Real.cos t) t ∧
    HasDerivAt (fun s => (helixCurve a b s).z) b t ∧ (-(a * Real.sin t)) ^ 2 + (a * Real.cos t) ^ 2 = a ^ 2 := by
  refine ⟨?_, ?_, ?_, ?_⟩
  · simpa [helixCurve] using (Real.hasDerivAt_cos t).const_mul a
  · simpa [helixCurve] using (Real.hasDerivAt_sin t).const_mul a
  · simpa [helixCurve] using (hasDerivAt_id t).const_mul b
  · have := Real.sin_sq_add_cos_sq t
    nlinarith

/-- **C74** numbers that are given are used as they are; the pitch is the rise of a turn, and with it or `b` given the slope is
the ratio of `a` and `b`. -/
theorem C74_params (a b s p : ℝ) (slope pitch : Option ℝ) :
    helixParams (some a) (some b) slope pitch = some (a, b) ∧
    (∃ B, helixParams (some a) none none (some p) = some (a, B) ∧ 2 * Real.pi * B = p) ∧
    (∃ A, helixParams none (some b) (some s) pitch = some (A, b) ∧ (b ≠ 0 → A / b = s)) ∧
    (∃ A B, helixParams none none (some s) (some p) = some (A, B) ∧ 2 * Real.pi * B = p ∧ (p ≠ 0 → A / B = s)) := by
  refine ⟨?_, ⟨p / 2 / Real.pi, rfl, ?_⟩, ⟨s * b, ?_, fun h => mul_div_cancel_right₀ _ h⟩,
    ⟨s * (p / 2 / Real.pi), p / 2 / Real.pi, rfl, ?_, fun h => mul_div_cancel_right₀ _ ?_⟩⟩
  · cases slope <;> cases pitch <;> rfl
  · field_simp
  · cases pitch <;> rfl
  · field_simp
  · positivity

/-- (negation) The slope is the ratio of `a` and `b`, but not if it is given with `a`: then `b` is `slope / a` and not
`a / slope`. -/
theorem C74_slope_false : ¬ ∀ (a s A B : ℝ), a ≠ 0 → s ≠ 0 → helixParams (some a) none (some s) none = some (A, B) → A / B = s := by
  intro h
  have := h 2 4 2 2 (by norm_num) (by norm_num) (by simp [helixParams, orElseGet, pyDiv]; norm_num)
  norm_num at this

/-- **C74** what remains: the slope is met if it equals `a` or `-a`, and only then. Missing: all other slopes (`C74_slope_false`). -/
theorem C74_slope_partial {a s : ℝ} (ha : a ≠ 0) (hs : s ≠ 0) :
    ∃ A B, helixParams (some a) none (some s) none = some (A, B) ∧ A = a ∧ (A / B = s ↔ s = a ∨ s = -a) := by
  refine ⟨a, s / a, by simp [helixParams, orElseGet, pyDiv, ha], rfl, ?_⟩
  rw [div_div_eq_mul_div, div_eq_iff hs, eq_comm, ← sq, ← sq, sq_eq_sq_iff_eq_or_eq_neg]

/-- Without enough numbers the curve cannot be evaluated. -/
theorem C74_missing (t : ℝ) : circularHelix none none none none t = none ∧ circularHelix (some 1) none none none t = none ∧
    circularHelix none none (some 1) none t = none := ⟨rfl, rfl, rfl⟩

example : helixParams (some 1) none (some 1) none = some (1, 1) := by
  simp [helixParams, orElseGet, pyDiv]

/-! ## lemmas on means -/

theorem hypot_nonneg (p : ℝ × ℝ) : 0 ≤ hypot p := Real.sqrt_nonneg _

theorem hypot_sq (p : ℝ × ℝ) : hypot p ^ 2 = p.1 ^ 2 + p.2 ^ 2 := Real.sq_sqrt (by positivity)

theorem hypot_polar {r : ℝ} (hr : 0 ≤ r) (θ : ℝ) : hypot (polarPt r θ) = r := by
  unfold hypot polarPt
  simp only [mul_pow, ← mul_add, Real.cos_sq_add_sin_sq, mul_one]
  exact Real.sqrt_sq hr

/-- The mean of three points. -/
noncomputable def mean3 (p q s : ℝ × ℝ) : ℝ × ℝ := ((p.1 + q.1 + s.1) / 3, (p.2 + q.2 + s.2) / 3)

theorem meanPt_three {pts : List (ℝ × ℝ)} {a b c : Nat} {p q s : ℝ × ℝ} (ha : pts[a]? = some p) (hb : pts[b]? = some q)
    (hc : pts[c]? = some s) : meanPt pts [a, b, c] = some (mean3 p q s) := by
  simp only [meanPt, List.mapM_cons, List.mapM_nil, ha, hb, hc]
  simp [mean3, add_assoc]

/-- The mean of three points of a circle lies inside, unless all three are the same. -/
theorem mean_inside {p q s : ℝ × ℝ} {r : ℝ} (h1 : hypot p = r) (h2 : hypot q = r) (h3 : hypot s = r) (hne : ¬ (p = q ∧ q = s)) :
    hypot (mean3 p q s) < r := by
  have hr : 0 ≤ r := h1 ▸ hypot_nonneg p
  have e1 := hypot_sq p
  have e2 := hypot_sq q
  have e3 := hypot_sq s
  rw [h1] at e1; rw [h2] at e2; rw [h3] at e3
  have hpos : 0 < (p.1 - q.1) ^ 2 + (p.2 - q.2) ^ 2 + (q.1 - s.1) ^ 2 + (q.2 - s.2) ^ 2 := by
    by_contra hcon
    apply hne
    have z1 : (p.1 - q.1) ^ 2 = 0 := by nlinarith [sq_nonneg (p.1 - q.1), sq_nonneg (p.2 - q.2), sq_nonneg (q.1 - s.1), sq_nonneg (q.2 - s.2)]
    have z2 : (p.2 - q.2) ^ 2 = 0 := by nlinarith [sq_nonneg (p.1 - q.1), sq_nonneg (p.2 - q.2), sq_nonneg (q.1 - s.1), sq_nonneg (q.2 - s.2)]
    have z3 : (q.1 - s.1) ^ 2 = 0 := by nlinarith [sq_nonneg (p.1 - q.1), sq_nonneg (p.2 - q.2), sq_nonneg (q.1 - s.1), sq_nonneg (q.2 - s.2)]
    have z4 : (q.2 - s.2) ^ 2 = 0 := by nlinarith [sq_nonneg (p.1 - q.1), sq_nonneg (p.2 - q.2), sq_nonneg (q.1 - s.1), sq_nonneg (q.2 - s.2)]
    rw [sq_eq_zero_iff, sub_eq_zero] at z1 z2 z3 z4
    exact ⟨Prod.ext z1 z2, Prod.ext z3 z4⟩
  have hm := hypot_sq (mean3 p q s)
  simp only [mean3] at hm
  refine lt_of_pow_lt_pow_left₀ 2 hr ?_
  simp only [mean3]
  rw [hm]
  nlinarith [sq_nonneg (p.1 - s.1), sq_nonneg (p.2 - s.2)]

/-! ## masks -/

/-- A triangulation of the points: rows of three nodes with points. -/
def IsTris (pts : List (ℝ × ℝ)) (T : Topo) : Prop := ∀ t ∈ T, t.length = 3 ∧ ∀ n ∈ t, n < pts.length

/-- The corners of a triangle. -/
def Corners (pts : List (ℝ × ℝ)) (t : List Nat) (p q s : ℝ × ℝ) : Prop :=
  ∃ a b c, t = [a, b, c] ∧ pts[a]? = some p ∧ pts[b]? = some q ∧ pts[c]? = some s

theorem corners_exist {pts : List (ℝ × ℝ)} {t : List Nat} (h : t.length = 3 ∧ ∀ n ∈ t, n < pts.length) :
    ∃ p q s, Corners pts t p q s := by
  match t, h with
  | [a, b, c], h =>
    have ha := h.2 a (by simp)
    have hb := h.2 b (by simp)
    have hc := h.2 c (by simp)
    exact ⟨_, _, _, a, b, c, rfl, List.getElem?_eq_getElem ha, List.getElem?_eq_getElem hb, List.getElem?_eq_getElem hc⟩

theorem Corners.mean {pts : List (ℝ × ℝ)} {t : List Nat} {p q s : ℝ × ℝ} (h : Corners pts t p q s) :
    meanPt pts t = some (mean3 p q s) := by
  obtain ⟨a, b, c, rfl, h1, h2, h3⟩ := h
  exact meanPt_three h1 h2 h3

/-- The mask drops exactly the triangles whose mean is nearer to the origin than `r`. -/
theorem maskTris_spec {pts : List (ℝ × ℝ)} {tris : Topo} (h : IsTris pts tris) (r : ℝ) :
    ∃ T, maskTris pts r tris = some T ∧ T.Sublist tris ∧
      ∀ t p q s, Corners pts t p q s → (t ∈ T ↔ t ∈ tris ∧ r ≤ hypot (mean3 p q s)) := by
  have hm : ∀ t ∈ tris, ∃ c, meanPt pts t = some c := fun t ht => by
    obtain ⟨p, q, s, hc⟩ := corners_exist (h t ht)
    exact ⟨_, hc.mean⟩
  have e : tris.mapM (fun (t : List Nat) => (meanPt pts t).map fun c => (t, decide (hypot c < r))) =
      some (tris.map fun t => (t, decide (hypot ((meanPt pts t).getD (0, 0)) < r))) := by
    apply mapM_some
    intro t ht
    obtain ⟨c, hc⟩ := hm t ht
    simp [hc]
  refine ⟨_, by rw [maskTris, e]; rfl, ?_, ?_⟩
  · dsimp only
    rw [List.filter_map, List.map_map]
    have : (Prod.fst ∘ fun t : List Nat => (t, decide (hypot ((meanPt pts t).getD (0, 0)) < r))) = id := rfl
    rw [this, List.map_id]
    exact List.filter_sublist
  · intro t p q s hc
    dsimp only
    rw [List.filter_map, List.map_map]
    have : (Prod.fst ∘ fun t : List Nat => (t, decide (hypot ((meanPt pts t).getD (0, 0)) < r))) = id := rfl
    rw [this, List.map_id, List.mem_filter]
    simp [hc.mean]

/-- **C76** the masked mesh: the triangles whose mean is not nearer than `r`, with the same corners, and only the points they
use. -/
theorem C76_masked {delaunay : List (ℝ × ℝ) → Topo} {pts : List (ℝ × ℝ)} (h : IsTris pts (delaunay pts)) (r : ℝ) :
    ∃ C T T0, maskedMesh delaunay pts r = some (C, T) ∧ T0.Sublist (delaunay pts) ∧
      (∀ t p q s, Corners pts t p q s → (t ∈ T0 ↔ t ∈ delaunay pts ∧ r ≤ hypot (mean3 p q s))) ∧
      T.map List.length = T0.map List.length ∧
      (∀ (i j n : Nat), nodeAt T0 i j = some n → ∃ k p, nodeAt T i j = some k ∧ pts[n]? = some p ∧ C[k]? = some ⟨p.1, p.2, 0⟩) ∧
      (∀ k, UsesNode T k ↔ k < C.length) := by
  obtain ⟨T0, h1, h2, h3⟩ := maskTris_spec h r
  have hu : ∀ n, UsesNode T0 n → n < pts.length := by
    rintro n ⟨t, ht, hn⟩
    exact (h t (h2.subset ht)).2 n hn
  obtain ⟨C, T, ids, d1, -, -, -, -, d2, d3, d4⟩ := C04_detach (liftPts pts) T0 (by simpa [liftPts] using hu)
  refine ⟨C, T, T0, by rw [maskedMesh, h1]; exact d1, h2, h3, d2, ?_, d3⟩
  intro i j n hn
  obtain ⟨k, hk, hC⟩ := d4 i j n hn
  have hlt : n < pts.length := by
    apply hu
    unfold nodeAt at hn
    cases hr : T0[i]? with
    | none => rw [hr] at hn; cases hn
    | some row =>
      rw [hr] at hn
      exact ⟨row, List.mem_of_getElem? hr, List.mem_of_getElem? hn⟩
  exact ⟨k, pts[n], hk, List.getElem?_eq_getElem hlt, by rw [hC]; simp [liftPts, List.getElem?_eq_getElem hlt]⟩

/-- **C76** the hole is open: no triangle between points of the circle of radius `r` is kept. -/
theorem C76_hole {pts : List (ℝ × ℝ)} {tris : Topo} (h : IsTris pts tris) {r : ℝ} {T : Topo} (hT : maskTris pts r tris = some T)
    {t : List Nat} {p q s : ℝ × ℝ} (hc : Corners pts t p q s) (h1 : hypot p = r) (h2 : hypot q = r) (h3 : hypot s = r)
    (hne : ¬ (p = q ∧ q = s)) : t ∉ T := by
  obtain ⟨T', e, -, hk⟩ := maskTris_spec h r
  rw [hT] at e
  obtain rfl := Option.some.inj e
  intro ht
  exact absurd ((hk t p q s hc).1 ht).2 (not_le.2 (mean_inside h1 h2 h3 hne))

/-! ## C76: points of the disk -/

theorem linspaceOpen_get {a b : ℝ} {n i : Nat} (hi : i < n) : (linspaceOpen a b n)[i]? = some (a + (i : ℝ) * ((b - a) / (n : ℝ))) := by
  simp [linspaceOpen, List.getElem?_range hi]

/-- Radius of circle `j` of `m`. -/
noncomputable def diskRadius (rmin rmax : ℝ) (m j : Nat) : ℝ := rmin + (j : ℝ) * ((rmax - rmin) / ((m : ℝ) - 1))

/-- Angle `k` of `n` on circle `j`: every second circle is turned by half of a division. -/
noncomputable def diskAngle (n k j : Nat) : ℝ := 2 * Real.pi * ((k : ℝ) + (if j % 2 = 1 then 1 / 2 else 0)) / (n : ℝ)

theorem diskPoints_length (n m : Nat) (rmin rmax : ℝ) : (diskPoints n m rmin rmax).length = n * m := by
  unfold diskPoints
  rw [length_flatMap_block (n := m)]
  · simp [linspaceOpen, mul_comm]
  · intro a _; simp [linspace_length]

/-- **C76** the points of the disk: `n` angles on each of `m` circles with radii from `rmin` to `rmax`; point `k * m + j` is at angle
`k` on circle `j`. -/
theorem C76_points {n m : Nat} (hm : 2 ≤ m) (rmin rmax : ℝ) :
    (diskPoints n m rmin rmax).length = n * m ∧
    (∀ k j, k < n → j < m → (diskPoints n m rmin rmax)[k * m + j]? = some (polarPt (diskRadius rmin rmax m j) (diskAngle n k j))) ∧
    diskRadius rmin rmax m 0 = rmin ∧ diskRadius rmin rmax m (m - 1) = rmax := by
  refine ⟨diskPoints_length .., ?_, by simp [diskRadius], ?_⟩
  · intro k j hk hj
    unfold diskPoints
    rw [getElem?_flatMap_block (n := m) (by intro a _; simp [linspace_length]) hj, linspaceOpen_get hk]
    simp only [Option.bind_eq_bind, Option.bind_some, List.getElem?_map, List.getElem?_zipIdx, linspace_get hj hm, Option.map_some, Nat.zero_add]
    congr 1
    refine congrArg (polarPt (diskRadius rmin rmax m j)) ?_
    unfold diskAngle
    split <;> ring
  · have : (m : ℝ) - 1 ≠ 0 := by
      have : (2 : ℝ) ≤ m := by exact_mod_cast hm
      linarith
    unfold diskRadius
    rw [Nat.cast_sub (by omega), Nat.cast_one, mul_div_cancel₀ _ this]
    ring

/-- **C76** all points lie between the two radii. -/
theorem C76_between {n m : Nat} {rmin rmax : ℝ} (h0 : 0 ≤ rmin) (h1 : rmin ≤ rmax) :
    ∀ p ∈ diskPoints n m rmin rmax, rmin ≤ hypot p ∧ hypot p ≤ rmax := by
  intro p hp
  unfold diskPoints at hp
  rw [List.mem_flatMap] at hp
  obtain ⟨a, -, hp⟩ := hp
  rw [List.mem_map] at hp
  obtain ⟨q, hq, rfl⟩ := hp
  have hr := linspace_bounds h1 q.1 (List.fst_mem_of_mem_zipIdx hq)
  rw [hypot_polar (h0.trans hr.1)]
  exact hr

theorem polar_inj {r θ φ : ℝ} (hr : 0 < r) (h : polarPt r θ = polarPt r φ) : ∃ z : ℤ, θ - φ = 2 * Real.pi * z := by
  simp only [polarPt, Prod.mk.injEq, mul_eq_mul_left_iff, hr.ne', or_false] at h
  exact Real.Angle.angle_eq_iff_two_pi_dvd_sub.1 (Real.Angle.cos_sin_inj h.1 h.2)

theorem same_angle {n k k' : Nat} {c : ℝ} (hk : k < n) (hk' : k' < n) {z : ℤ}
    (h : 2 * Real.pi * ((k : ℝ) + c) / (n : ℝ) - 2 * Real.pi * ((k' : ℝ) + c) / (n : ℝ) = 2 * Real.pi * z) : k = k' := by
  have hn : (n : ℝ) ≠ 0 := by
    have : 0 < n := by omega
    exact_mod_cast this.ne'
  have e : (k : ℝ) - k' = z * n := by
    have hp := Real.pi_ne_zero
    field_simp at h
    linarith
  have e' : (k : ℤ) - k' = z * n := by exact_mod_cast e
  have hz : z = 0 := by
    by_contra hz
    rcases lt_or_gt_of_ne hz with hz | hz
    · have : z * n ≤ -1 * n := mul_le_mul_of_nonneg_right (by omega) (by omega)
      omega
    · have : 1 * (n : ℤ) ≤ z * n := mul_le_mul_of_nonneg_right (by omega) (by omega)
      omega
  subst hz
  omega

/-- **C76** with an inner radius greater than zero no two points coincide. -/
theorem C76_distinct {n m : Nat} (hm : 2 ≤ m) {rmin rmax : ℝ} (h0 : 0 < rmin) (h1 : rmin < rmax) :
    (diskPoints n m rmin rmax).Nodup := by
  obtain ⟨hl, hg, -, -⟩ := C76_points (n := n) hm rmin rmax
  have hm1 : (0 : ℝ) < (m : ℝ) - 1 := by
    have : (2 : ℝ) ≤ m := by exact_mod_cast hm
    linarith
  have hd : 0 < (rmax - rmin) / ((m : ℝ) - 1) := div_pos (by linarith) hm1
  have hpos : ∀ j, 0 < diskRadius rmin rmax m j := fun j => by
    unfold diskRadius
    have : (0 : ℝ) ≤ (j : ℝ) := by positivity
    have := mul_nonneg this hd.le
    linarith
  rw [List.nodup_iff_getElem?_ne_getElem?]
  intro i j hij hj heq
  rw [hl] at hj
  obtain ⟨k, a, hk, ha, rfl⟩ := mixed_radix_exists (n := m) (m := n) (r := i) (by rw [Nat.mul_comm]; omega)
  obtain ⟨k', a', hk', ha', rfl⟩ := mixed_radix_exists (n := m) (m := n) (r := j) (by rw [Nat.mul_comm]; omega)
  rw [hg k a hk ha, hg k' a' hk' ha'] at heq
  have heq := Option.some.inj heq
  have hr := congrArg hypot heq
  rw [hypot_polar (hpos a).le, hypot_polar (hpos a').le] at hr
  have : a = a' := by
    have : (a : ℝ) = a' := by
      unfold diskRadius at hr
      exact mul_right_cancel₀ hd.ne' (add_left_cancel hr)
    exact_mod_cast this
  subst this
  obtain ⟨z, hz⟩ := polar_inj (hpos a) heq
  have := same_angle hk hk' hz
  subst this
  omega

/-- (negation) The inner radius "can be zero", but then the points of the first circle all coincide. -/
theorem C76_centre_false : ¬ ∀ (n m : Nat) (rmin rmax : ℝ), 2 ≤ m → 0 ≤ rmin → rmin < rmax → (diskPoints n m rmin rmax).Nodup := by
  intro h
  have := h 3 2 0 1 (le_refl _) (le_refl _) one_pos
  rw [List.nodup_iff_getElem?_ne_getElem?] at this
  obtain ⟨hl, hg, -, -⟩ := C76_points (n := 3) (m := 2) (le_refl _) 0 1
  apply this 0 2 (by norm_num) (by rw [hl]; norm_num)
  rw [show 0 = 0 * 2 + 0 from rfl, show 2 = 1 * 2 + 0 from rfl, hg 0 0 (by norm_num) (by norm_num), hg 1 0 (by norm_num) (by norm_num)]
  simp [polarPt, diskRadius]

/-! ## triangles of a masked mesh -/

/-- A triangle as a row. -/
def rowOf (t : Nat × Nat × Nat) : List Nat := [t.1, t.2.1, t.2.2]

theorem rowTriples_map (l : List (Nat × Nat × Nat)) : rowTriples (l.map rowOf) = some l := by
  unfold rowTriples
  rw [List.mapM_map]
  refine (mapM_some (g := id) ?_).trans (by simp)
  intro t _
  rfl

theorem exists_triples {T : Topo} (h : ∀ t ∈ T, t.length = 3) : ∃ l : List (Nat × Nat × Nat), T = l.map rowOf := by
  induction T with
  | nil => exact ⟨[], rfl⟩
  | cons t T ih =>
    obtain ⟨l, rfl⟩ := ih fun t ht => h t (List.mem_cons_of_mem _ ht)
    match t, h t (List.mem_cons_self ..) with
    | [a, b, c], _ => exact ⟨(a, b, c) :: l, rfl⟩

/-- The triangles kept by the mask and their numbering in the mesh returned: same areas, in the same order. -/
theorem masked_tris {delaunay : List (ℝ × ℝ) → Topo} {pts : List (ℝ × ℝ)} (h : IsTris pts (delaunay pts)) (r : ℝ) :
    ∃ (C : List (V3 ℝ)) (kept tris : List (Nat × Nat × Nat)), maskedMesh delaunay pts r = some (C, tris.map rowOf) ∧
      (kept.map rowOf).Sublist (delaunay pts) ∧
      (∀ t p q s, Corners pts (rowOf t) p q s → (t ∈ kept ↔ rowOf t ∈ delaunay pts ∧ r ≤ hypot (mean3 p q s))) ∧
      TrisOK C.length tris ∧ tris.map (area2D (flatPts C)) = kept.map (area2D pts) ∧
      (∀ p, p ∈ flatPts C ↔ ∃ t ∈ kept, ∃ n ∈ rowOf t, pts[n]? = some p) := by
  obtain ⟨C, T, T0, h1, h2, h3, h4, h5, h6⟩ := C76_masked h r
  have l0 : ∀ t ∈ T0, t.length = 3 := fun t ht => (h t (h2.subset ht)).1
  have l1 : ∀ t ∈ T, t.length = 3 := by
    intro t ht
    have : t.length ∈ T0.map List.length := h4 ▸ List.mem_map_of_mem ht
    obtain ⟨u, hu, hu'⟩ := List.mem_map.1 this
    exact hu' ▸ l0 u hu
  obtain ⟨kept, rfl⟩ := exists_triples l0
  obtain ⟨tris, rfl⟩ := exists_triples l1
  have hlen : tris.length = kept.length := by
    have := congrArg List.length h4
    simpa using this
  have rinj : ∀ s t, rowOf s = rowOf t → s = t := by
    rintro ⟨a, b, c⟩ ⟨x, y, z⟩ h
    simp only [rowOf, List.cons.injEq, and_true] at h
    obtain ⟨rfl, rfl, rfl⟩ := h
    rfl
  have row0 : ∀ {i j x : Nat} {l : List (Nat × Nat × Nat)} {t : Nat × Nat × Nat}, l[i]? = some t → (rowOf t)[j]? = some x →
      nodeAt (l.map rowOf) i j = some x := by
    intro i j x l t hl hx
    simp [nodeAt, hl, hx]
  refine ⟨C, kept, tris, h1, h2, ?_, ?_, ?_, ?_⟩
  · intro t p q s hc
    rw [← h3 _ _ _ _ hc]
    constructor
    · exact fun ht => List.mem_map_of_mem ht
    · intro ht
      obtain ⟨u, hu, e⟩ := List.mem_map.1 ht
      exact rinj _ _ e ▸ hu
  · intro t ht
    have hu : ∀ k ∈ rowOf t, k < C.length := fun k hk => (h6 k).1 ⟨rowOf t, List.mem_map_of_mem ht, hk⟩
    exact ⟨hu _ (by simp [rowOf]), hu _ (by simp [rowOf]), hu _ (by simp [rowOf])⟩
  · apply List.ext_getElem (by simpa using hlen)
    intro i hi hi'
    rw [List.length_map] at hi hi'
    rw [List.getElem_map, List.getElem_map]
    have key : ∀ (j x y : Nat), (rowOf kept[i])[j]? = some x → (rowOf tris[i])[j]? = some y →
        (flatPts C).getD y (0, 0) = pts.getD x (0, 0) := by
      intro j x y hx hy
      obtain ⟨k, p, hk, hp, hC⟩ := h5 i j x (by simp [nodeAt, List.getElem?_eq_getElem hi', hx])
      have : k = y := by
        simp only [nodeAt, List.getElem?_map, List.getElem?_eq_getElem hi, Option.map_some, Option.bind_some, Option.bind_eq_bind] at hk
        rw [hy] at hk
        exact (Option.some.inj hk).symm
      subst this
      simp [flatPts, hC, hp, List.getD_eq_getElem?_getD]
    have k0 := key 0 _ _ rfl rfl
    have k1 := key 1 _ _ rfl rfl
    have k2 := key 2 _ _ rfl rfl
    unfold area2D
    rw [k0, k1, k2]
  · intro p
    constructor
    · intro hp
      obtain ⟨c, hc, rfl⟩ := List.mem_map.1 hp
      obtain ⟨k, hk⟩ := List.mem_iff_getElem?.1 hc
      obtain ⟨row, hrow, hkr⟩ := (h6 k).2 (List.getElem?_eq_some_iff.1 hk).1
      obtain ⟨t, ht, rfl⟩ := List.mem_map.1 hrow
      obtain ⟨i, hi⟩ := List.mem_iff_getElem?.1 ht
      obtain ⟨j, hj⟩ := List.mem_iff_getElem?.1 hkr
      have hi' : i < kept.length := hlen ▸ (List.getElem?_eq_some_iff.1 hi).1
      have hj' : j < (rowOf kept[i]).length := (List.getElem?_eq_some_iff.1 hj).1
      obtain ⟨k', q, hk', hq, hC⟩ := h5 i j _ (row0 (List.getElem?_eq_getElem hi') (List.getElem?_eq_getElem hj'))
      rw [row0 hi hj] at hk'
      obtain rfl := Option.some.inj hk'
      rw [hk] at hC
      obtain rfl := Option.some.inj hC
      exact ⟨_, List.getElem_mem hi', _, List.getElem_mem hj', hq⟩
    · rintro ⟨t, ht, n, hn, hp⟩
      obtain ⟨i, hi⟩ := List.mem_iff_getElem?.1 ht
      obtain ⟨j, hj⟩ := List.mem_iff_getElem?.1 hn
      obtain ⟨k, q, -, hq, hC⟩ := h5 i j _ (row0 hi hj)
      rw [hp] at hq
      obtain rfl := Option.some.inj hq
      exact List.mem_map.2 ⟨_, List.mem_of_getElem? hC, rfl⟩

/-! ## C76: cylinders -/

/-- The triangles of a triangulation have positive areas (matplotlib orders the corners counterclockwise). -/
def AntiClockwise (pts : List (ℝ × ℝ)) (T : Topo) : Prop := ∀ t, rowOf t ∈ T → 0 < area2D pts t

/-- **C76** cylinders: layers of prisms over the triangles kept, three tetrahedra each; all have positive volumes and the sum of
their volumes is that of the prisms over the triangles kept (`tetVol6` is six times the volume, `area2D` twice the area). -/
theorem C76_cylinder {delaunay : List (ℝ × ℝ) → Topo} {radius : ℝ × ℝ} {n_radii n_angles n_z : Nat} (h : ℝ)
    (ht : IsTris (diskPoints n_angles n_radii radius.1 radius.2) (delaunay (diskPoints n_angles n_radii radius.1 radius.2))) :
    ∃ (C : List (V3 ℝ)) (kept tris : List (Nat × Nat × Nat)) (C' : List (List ℝ)) (T' : Topo),
      circularDisk delaunay n_angles n_radii radius.1 radius.2 = some (C, tris.map rowOf) ∧
      cylinderRegular delaunay radius h (n_radii, n_angles, n_z) = some (C', T') ∧
      (kept.map rowOf).Sublist (delaunay (diskPoints n_angles n_radii radius.1 radius.2)) ∧
      (∀ t p q s, Corners (diskPoints n_angles n_radii radius.1 radius.2) (rowOf t) p q s →
        (t ∈ kept ↔ rowOf t ∈ delaunay (diskPoints n_angles n_radii radius.1 radius.2) ∧ radius.1 ≤ hypot (mean3 p q s))) ∧
      (∀ p, p ∈ flatPts C ↔ ∃ t ∈ kept, ∃ n ∈ rowOf t, (diskPoints n_angles n_radii radius.1 radius.2)[n]? = some p) ∧
      Layers (flatPts C) h n_z C' ∧ T'.length = kept.length * n_z * 3 ∧ (∀ r ∈ T', r.length = 4 ∧ ∀ x ∈ r, x < C'.length) ∧
      (AntiClockwise (diskPoints n_angles n_radii radius.1 radius.2) (delaunay (diskPoints n_angles n_radii radius.1 radius.2)) →
        0 < h → ∀ r ∈ T', 0 < tetVol6 C' r) ∧
      (0 < n_z → (T'.map (tetVol6 C')).sum =
        3 * (kept.map (area2D (diskPoints n_angles n_radii radius.1 radius.2))).sum * h) := by
  obtain ⟨C, kept, tris, h1, h2, h3, h4, h5, h6⟩ := masked_tris ht radius.1
  have hok : TrisOK (flatPts C).length tris := by simpa [flatPts] using h4
  obtain ⟨e1, e2, e3, -, e5, e6, e7⟩ := C15_extrude_TET4 (flatPts C) tris h n_z hok _ _ rfl
  have hlen : tris.length = kept.length := by simpa using congrArg List.length h5
  refine ⟨C, kept, tris, _, _, h1, ?_, h2, h3, h6, e1, by rw [e2, hlen], fun r hr => ⟨e3 r hr, e5 r hr⟩, ?_, ?_⟩
  · rw [cylinderRegular, circularDisk, h1]
    simp only [Option.bind_some]
    rw [rowTriples_map]
    rfl
  · intro hcc hh
    refine e6 ?_ hh
    intro t ht
    have : area2D (flatPts C) t ∈ kept.map (area2D (diskPoints n_angles n_radii radius.1 radius.2)) := h5 ▸ List.mem_map_of_mem ht
    obtain ⟨u, hu, e⟩ := List.mem_map.1 this
    rw [← e]
    exact hcc u (h2.subset (List.mem_map_of_mem hu))
  · intro hz
    rw [← h5]
    exact e7 hz

/-- (negation) The numbers of divisions are documented in the order angular, radial, vertical, but the first one is the number of
circles: there are points at radii other than those of the radial division. -/
theorem C76_order_false : ¬ ∀ (delaunay : List (ℝ × ℝ) → Topo) (radius : ℝ × ℝ) (h : ℝ) (angular radial vertical : Nat)
    (C : List (List ℝ)) (T : Topo), cylinderRegular delaunay radius h (angular, radial, vertical) = some (C, T) →
    ∀ x y z, [x, y, z] ∈ C → ∃ j, j < radial ∧ hypot (x, y) = diskRadius radius.1 radius.2 radial j := by
  intro hall
  obtain ⟨hl, hg, -, -⟩ := C76_points (n := 2) (m := 3) (by norm_num) 1 2
  have g0 : (diskPoints 2 3 1 2)[0]? = some (1, 0) := by
    refine (hg 0 0 (by norm_num) (by norm_num)).trans ?_
    simp [polarPt, diskRadius, diskAngle]
  have g1 : (diskPoints 2 3 1 2)[1]? = some (0, 3 / 2) := by
    refine (hg 0 1 (by norm_num) (by norm_num)).trans ?_
    have : diskAngle 2 0 1 = Real.pi / 2 := by norm_num [diskAngle]; ring
    rw [this]
    simp [polarPt, diskRadius]
    norm_num
  have g2 : (diskPoints 2 3 1 2)[2]? = some (2, 0) := by
    refine (hg 0 2 (by norm_num) (by norm_num)).trans ?_
    simp [polarPt, diskRadius, diskAngle]
    norm_num
  obtain ⟨C, kept, tris, C', T', h1, h2, -, h4, h5, h6, -⟩ := C76_cylinder (delaunay := fun _ => [[0, 1, 2]]) (radius := (1, 2))
    (n_radii := 3) (n_angles := 2) (n_z := 1) 1 (by intro t ht; simp at ht; subst ht; simp [hl])
  have hk : ((0, 1, 2) : Nat × Nat × Nat) ∈ kept := by
    refine (h4 (0, 1, 2) _ _ _ ⟨0, 1, 2, rfl, g0, g1, g2⟩).2 ⟨by simp [rowOf], ?_⟩
    refine le_of_pow_le_pow_left₀ two_ne_zero (hypot_nonneg _) ?_
    rw [hypot_sq]
    norm_num [mean3]
  have hp : ((0 : ℝ), (3 / 2 : ℝ)) ∈ flatPts C := (h5 _).2 ⟨_, hk, 1, by simp [rowOf], g1⟩
  obtain ⟨n, hn⟩ := List.mem_iff_getElem?.1 hp
  have hC := List.mem_of_getElem? (h6.get 0 n _ (by norm_num) hn)
  obtain ⟨j, hj, e⟩ := hall _ _ _ _ _ _ _ _ h2 _ _ _ hC
  have e2 := congrArg (· ^ 2) e
  simp only [hypot_sq] at e2
  match j, hj with
  | 0, _ => norm_num [diskRadius] at e2
  | 1, _ => norm_num [diskRadius] at e2

/-- (negation) The mask is meant for the hole, but triangles with a corner outside of the hole are dropped too: here those between
two neighbouring points of the inner circle and the point of the outer circle between them. -/
theorem C76_dropped_false : ¬ ∀ (n m : Nat) (rmin rmax : ℝ) (tris T : Topo), 3 ≤ n → 2 ≤ m → 0 < rmin → rmin < rmax →
    IsTris (diskPoints n m rmin rmax) tris → maskTris (diskPoints n m rmin rmax) rmin tris = some T →
    ∀ t p q s, Corners (diskPoints n m rmin rmax) t p q s → t ∈ tris → rmin < hypot q → t ∈ T := by
  intro hall
  obtain ⟨hl, hg, -, -⟩ := C76_points (n := 4) (m := 2) (by norm_num) 1 (6 / 5)
  have g0 : (diskPoints 4 2 1 (6 / 5))[0]? = some (1, 0) := by
    refine (hg 0 0 (by norm_num) (by norm_num)).trans ?_
    simp [polarPt, diskRadius, diskAngle]
  have g1 : (diskPoints 4 2 1 (6 / 5))[1]? = some (6 / 5 * (√2 / 2), 6 / 5 * (√2 / 2)) := by
    refine (hg 0 1 (by norm_num) (by norm_num)).trans ?_
    have : diskAngle 4 0 1 = Real.pi / 4 := by norm_num [diskAngle]; ring
    rw [this]
    simp only [polarPt, Real.cos_pi_div_four, Real.sin_pi_div_four]
    norm_num [diskRadius]
  have g2 : (diskPoints 4 2 1 (6 / 5))[2]? = some (0, 1) := by
    refine (hg 1 0 (by norm_num) (by norm_num)).trans ?_
    have : diskAngle 4 1 0 = Real.pi / 2 := by simp [diskAngle]; ring
    rw [this]
    simp [polarPt, diskRadius]
  have hv : IsTris (diskPoints 4 2 1 (6 / 5)) [[0, 1, 2]] := by intro t ht; simp at ht; subst ht; simp [hl]
  have hc : Corners (diskPoints 4 2 1 (6 / 5)) [0, 1, 2] _ _ _ := ⟨0, 1, 2, rfl, g0, g1, g2⟩
  have h2 : (√2) ^ 2 = 2 := Real.sq_sqrt (by norm_num)
  obtain ⟨T, hT, -, hk⟩ := maskTris_spec hv 1
  have := hall 4 2 1 (6 / 5) _ T (by norm_num) (by norm_num) (by norm_num) (by norm_num) hv hT _ _ _ _ hc (by simp) (by
    refine lt_of_pow_lt_pow_left₀ 2 (hypot_nonneg _) ?_
    rw [hypot_sq]
    nlinarith)
  have := ((hk _ _ _ _ hc).1 this).2
  have h3 := pow_le_pow_left₀ zero_le_one this 2
  rw [hypot_sq] at h3
  simp only [mean3] at h3
  have : √2 < 3 / 2 := (Real.sqrt_lt' (by norm_num)).2 (by norm_num)
  nlinarith

/-! ## C77: perforated cubes -/

theorem cubeShape_some {lx ly : ℝ} {lmax : Option ℝ} (h : ∀ l, lmax = some l → l ≠ 0) :
    ∃ s, cubeShape lx ly lmax = some s ∧ 4 ≤ s.1 ∧ 4 ≤ s.2 := by
  cases lmax with
  | none => exact ⟨(4, 4), rfl, le_refl _, le_refl _⟩
  | some l =>
    refine ⟨_, by rw [cubeShape]; simp only [if_neg (h l rfl)]; rfl, ?_, ?_⟩
    · have := le_max_right (pyInt (lx / l)) 4
      dsimp only
      omega
    · have := le_max_right (pyInt (ly / l)) 4
      dsimp only
      omega

/-- **C77** the points outside of the hole: those of the uniform lattice over the rectangle of sides `lx`, `ly` around the origin that
are farther from the origin than `cubeClear`. -/
theorem C77_grid {lx ly radius : ℝ} {lmax : Option ℝ} (h : ∀ l, lmax = some l → l ≠ 0) :
    ∃ s g, cubeShape lx ly lmax = some s ∧ 4 ≤ s.1 ∧ 4 ≤ s.2 ∧ cubeGridPoints lx ly radius lmax = some g ∧
      ∀ p, p ∈ g ↔ cubeClear radius lmax < hypot p ∧ ∃ i j : Nat, i ≤ s.1 ∧ j ≤ s.2 ∧
        p = (lx * ((i : ℝ) / (s.1 : ℝ) - 1 / 2), ly * ((j : ℝ) / (s.2 : ℝ) - 1 / 2)) := by
  obtain ⟨s, hs, h1, h2⟩ := cubeShape_some (lx := lx) (ly := ly) h
  obtain ⟨C', hC, hM⟩ := C17_centralize_2d lx ly s.1 s.2 2 2 0 0 0 ⟨by omega, by omega⟩ ⟨le_refl _, le_refl _⟩
  have hC2 : grid { size := some [lx, ly], shape := some [s.1, s.2], centralize := true } (.tuple [2, 2]) none =
      some (C', (rgrid2 lx ly s.1 s.2 2 2 0 0 0).2) := hC
  refine ⟨s, _, hs, h1, h2, by rw [cubeGridPoints, hs, Option.bind_some, hC2]; rfl, ?_⟩
  intro p
  simp only [List.mem_filter, List.mem_map, decide_eq_true_eq]
  rw [and_comm]
  refine and_congr_right fun _ => ?_
  have hmem : ∀ r, r ∈ C' ↔ ∃ i j : Nat, i ≤ s.1 ∧ j ≤ s.2 ∧
      r = [lx * ((i : ℝ) / (s.1 : ℝ) - 1 / 2), ly * ((j : ℝ) / (s.2 : ℝ) - 1 / 2)] := by
    intro r
    rw [hM, rgrid2, rgrid2_closed lx ly 0 0 0 ⟨by omega, by omega⟩ ⟨le_refl _, le_refl _⟩ (.refl _) (.refl _)]
    simp only [List.mem_map, gridCoords, mem_gridL]
    have val : ∀ (l : ℝ) (n x : Nat), (uniAxis l n 2 0).val x - l / 2 = l * ((x : ℝ) / (n : ℝ) - 2⁻¹) := by
      intro l n x
      have e : (uniAxis l n 2 0).val x = (uniAxis l n 2 0).pos x 0 := by
        simp [Axis.val, uniAxis, Nat.mod_one]
      rw [e, uni_pos]
      push_cast
      ring
    constructor
    · rintro ⟨c, ⟨xs, hx, rfl⟩, rfl⟩
      match xs, hx with
      | [x, y], hx =>
        simp only [List.map_cons, List.map_nil, Within, Axis.pts, uniAxis] at hx
        refine ⟨x, y, by omega, by omega, ?_⟩
        simp [gridVal, val]
    · rintro ⟨i, j, hi, hj, rfl⟩
      refine ⟨_, ⟨[i, j], ?_, rfl⟩, ?_⟩
      · simp only [List.map_cons, List.map_nil, Within, Axis.pts, uniAxis, and_true]
        omega
      · simp [gridVal, val]
  constructor
  · rintro ⟨r, hr, rfl⟩
    obtain ⟨i, j, hi, hj, rfl⟩ := (hmem r).1 hr
    exact ⟨i, j, hi, hj, by simp⟩
  · rintro ⟨i, j, hi, hj, rfl⟩
    exact ⟨_, (hmem _).2 ⟨i, j, hi, hj, rfl⟩, by simp⟩

theorem mem_cubeCircle {radius : ℝ} (hr : 0 ≤ radius) {n : Nat} : ∀ p ∈ cubeCircle radius n, hypot p = radius := by
  intro p hp
  obtain ⟨a, -, rfl⟩ := List.mem_map.1 hp
  exact hypot_polar hr a

/-- **C77** the points on the edge of the hole: `n` different points at equal angles. -/
theorem C77_circle {radius : ℝ} (hr : 0 < radius) (n : Nat) :
    (cubeCircle radius n).length = n ∧ (cubeCircle radius n).Nodup ∧
    ∀ k, k < n → (cubeCircle radius n)[k]? = some (polarPt radius (2 * Real.pi * (k : ℝ) / (n : ℝ))) := by
  have hg : ∀ k, k < n → (cubeCircle radius n)[k]? = some (polarPt radius (2 * Real.pi * (k : ℝ) / (n : ℝ))) := by
    intro k hk
    rw [cubeCircle, List.getElem?_map, linspaceOpen_get hk]
    simp only [Option.map_some, Option.some.injEq]
    congr 1
    ring
  have hl : (cubeCircle radius n).length = n := by simp [cubeCircle, linspaceOpen]
  refine ⟨hl, ?_, hg⟩
  rw [List.nodup_iff_getElem?_ne_getElem?]
  intro i j hij hj heq
  rw [hl] at hj
  rw [hg i (by omega), hg j hj] at heq
  obtain ⟨z, hz⟩ := polar_inj hr (Option.some.inj heq)
  have := same_angle (c := 0) (k := i) (k' := j) (n := n) (by omega) hj (z := z) (by simpa using hz)
  omega

/-- The length below which the points of the lattice are dropped is not less than the radius. -/
theorem clear_ge {radius : ℝ} (hr : 0 ≤ radius) {lmax : Option ℝ} (hl : ∀ l, lmax = some l → 0 < l) : radius ≤ cubeClear radius lmax := by
  cases lmax with
  | none => unfold cubeClear; dsimp only; linarith
  | some l =>
    have := hl l rfl
    unfold cubeClear
    dsimp only
    linarith

/-- **C77** the points to be triangulated: those of the lattice that are far enough from the hole, then those on its edge. None is
inside of the hole. -/
theorem C77_points {lx ly radius : ℝ} (hr : 0 ≤ radius) {lmax : Option ℝ} (hl : ∀ l, lmax = some l → 0 < l) (n : Nat) :
    ∃ g, cubeGridPoints lx ly radius lmax = some g ∧ (∀ p ∈ g, radius ≤ hypot p) ∧ ∀ p ∈ g ++ cubeCircle radius n, radius ≤ hypot p := by
  obtain ⟨s, g, -, -, -, h1, h2⟩ := C77_grid (lx := lx) (ly := ly) (radius := radius) (lmax := lmax) fun l h => (hl l h).ne'
  have hg : ∀ p ∈ g, radius ≤ hypot p := fun p hp => (clear_ge hr hl).trans ((h2 p).1 hp).1.le
  refine ⟨g, h1, hg, ?_⟩
  intro p hp
  rcases List.mem_append.1 hp with h | h
  · exact hg p h
  · exact (mem_cubeCircle hr p h).ge

/-- **C77** the corners of the rectangle are kept as long as they are far enough from the hole. -/
theorem C77_corners {lx ly radius : ℝ} {lmax : Option ℝ} (hl : ∀ l, lmax = some l → l ≠ 0)
    (hfar : cubeClear radius lmax < hypot (lx / 2, ly / 2)) {g : List (ℝ × ℝ)} (hg : cubeGridPoints lx ly radius lmax = some g) :
    ∀ a b : ℝ, (a = -1 ∨ a = 1) → (b = -1 ∨ b = 1) → (a * lx / 2, b * ly / 2) ∈ g := by
  obtain ⟨s, g', -, s1, s2, h1, h2⟩ := C77_grid (lx := lx) (ly := ly) (radius := radius) hl
  rw [hg] at h1
  obtain rfl := Option.some.inj h1
  have c1 : (s.1 : ℝ) ≠ 0 := by exact_mod_cast (by omega : s.1 ≠ 0)
  have c2 : (s.2 : ℝ) ≠ 0 := by exact_mod_cast (by omega : s.2 ≠ 0)
  have ax : ∀ (l : ℝ) (n : Nat), (n : ℝ) ≠ 0 → ∀ a : ℝ, (a = -1 ∨ a = 1) → ∃ i : Nat, i ≤ n ∧ a * l / 2 = l * ((i : ℝ) / (n : ℝ) - 1 / 2) := by
    rintro l n hn a (rfl | rfl)
    · exact ⟨0, Nat.zero_le _, by simp; ring⟩
    · exact ⟨n, le_refl _, by rw [div_self hn]; ring⟩
  intro a b ha hb
  obtain ⟨i, hi, ei⟩ := ax lx s.1 c1 a ha
  obtain ⟨j, hj, ej⟩ := ax ly s.2 c2 b hb
  refine (h2 _).2 ⟨?_, i, j, hi, hj, by rw [ei, ej]⟩
  have : hypot (a * lx / 2, b * ly / 2) = hypot (lx / 2, ly / 2) := by
    unfold hypot
    congr 1
    rcases ha with rfl | rfl <;> rcases hb with rfl | rfl <;> ring
  rwa [this]

/-- **C77** the hole is open: no triangle between three points of its edge is kept. -/
theorem C77_hole {g : List (ℝ × ℝ)} {radius : ℝ} (hr : 0 < radius) {n : Nat} {tris T : Topo} (h : IsTris (g ++ cubeCircle radius n) tris)
    (hT : maskTris (g ++ cubeCircle radius n) radius tris = some T) {a b c : Nat}
    (ha : g.length ≤ a ∧ a < g.length + n) (hb : g.length ≤ b ∧ b < g.length + n) (hc : g.length ≤ c ∧ c < g.length + n)
    (hne : a ≠ b) : [a, b, c] ∉ T := by
  obtain ⟨hl, hnd, hget⟩ := C77_circle hr n
  have hp : ∀ x, g.length ≤ x ∧ x < g.length + n → (g ++ cubeCircle radius n)[x]? = (cubeCircle radius n)[x - g.length]? :=
    fun x hx => List.getElem?_append_right hx.1
  have hcor : Corners (g ++ cubeCircle radius n) [a, b, c] _ _ _ :=
    ⟨a, b, c, rfl, (hp a ha).trans (List.getElem?_eq_getElem (by omega)), (hp b hb).trans (List.getElem?_eq_getElem (by omega)),
      (hp c hc).trans (List.getElem?_eq_getElem (by omega))⟩
  refine C76_hole h hT hcor ?_ ?_ ?_ ?_
  · exact mem_cubeCircle hr.le _ (List.getElem_mem _)
  · exact mem_cubeCircle hr.le _ (List.getElem_mem _)
  · exact mem_cubeCircle hr.le _ (List.getElem_mem _)
  · rintro ⟨e, -⟩
    have := (List.Nodup.getElem_inj_iff hnd).1 e
    omega

/-- **C77** the cells: prisms over the triangles kept in `cubeLayers` layers from `0` to `lz`, each one cell or three
tetrahedra, with the volume of the prisms over the triangles kept. -/
theorem C77_cells {delaunay : List (ℝ × ℝ) → Topo} {lx ly lz radius : ℝ} {nangles : Option Nat} {lmax : Option ℝ}
    {g : List (ℝ × ℝ)} (hg : cubeGridPoints lx ly radius lmax = some g) {pts : List (ℝ × ℝ)}
    (hp : pts = g ++ cubeCircle radius (cubeAngles radius nangles lmax)) (ht : IsTris pts (delaunay pts)) :
    ∃ (P : List (ℝ × ℝ)) (kept tris : List (Nat × Nat × Nat)) (C : List (List ℝ)) (T6 T4 : Topo),
      perforatedCube delaunay lx ly lz radius nangles lmax true = some (C, T6) ∧
      perforatedCube delaunay lx ly lz radius nangles lmax false = some (C, T4) ∧
      (kept.map rowOf).Sublist (delaunay pts) ∧
      (∀ t p q s, Corners pts (rowOf t) p q s → (t ∈ kept ↔ rowOf t ∈ delaunay pts ∧ radius ≤ hypot (mean3 p q s))) ∧
      (∀ p, p ∈ P ↔ ∃ t ∈ kept, ∃ n ∈ rowOf t, pts[n]? = some p) ∧
      tris.map (area2D P) = kept.map (area2D pts) ∧ Layers P lz (cubeLayers lz lmax) C ∧
      T6.length = kept.length * cubeLayers lz lmax ∧
      (∀ (i j : Nat) t, i < cubeLayers lz lmax → tris[j]? = some t → T6[i * tris.length + j]? = some (prism P.length i t)) ∧
      T4.length = kept.length * cubeLayers lz lmax * 3 ∧
      (AntiClockwise pts (delaunay pts) → 0 < lz → ∀ r ∈ T4, 0 < tetVol6 C r) ∧
      (0 < cubeLayers lz lmax → (T4.map (tetVol6 C)).sum = 3 * (kept.map (area2D pts)).sum * lz) := by
  subst hp
  obtain ⟨C, kept, tris, h1, h2, h3, h4, h5, h6⟩ := masked_tris ht radius
  have hok : TrisOK (flatPts C).length tris := by simpa [flatPts] using h4
  obtain ⟨e1, e2, -, -, -, e6, e7⟩ := C15_extrude_TET4 (flatPts C) tris lz (cubeLayers lz lmax) hok _ _ rfl
  obtain ⟨f1, f2, f3, -, -⟩ := C15_extrude_W6 (flatPts C) tris lz (cubeLayers lz lmax) hok _ _ rfl
  have hlen : tris.length = kept.length := by simpa using congrArg List.length h5
  have hrun : ∀ b, perforatedCube delaunay lx ly lz radius nangles lmax b = some (if b then
      extrudeT3W6 (flatPts C) tris lz (cubeLayers lz lmax) else extrudeT3TET4 (flatPts C) tris lz (cubeLayers lz lmax)) := by
    intro b
    rw [perforatedCube, cubeSection, hg, Option.bind_some, h1, Option.bind_some, rowTriples_map, Option.map_some]
  refine ⟨flatPts C, kept, tris, _, _, _, hrun true, hrun false, h2, h3, h6, h5, e1, by rw [f2, hlen], f3, by rw [e2, hlen], ?_, ?_⟩
  · intro hcc hh
    refine e6 ?_ hh
    intro t ht
    have : area2D (flatPts C) t ∈ kept.map (area2D (g ++ cubeCircle radius (cubeAngles radius nangles lmax))) := h5 ▸ List.mem_map_of_mem ht
    obtain ⟨u, hu, e⟩ := List.mem_map.1 this
    rw [← e]
    exact hcc u (h2.subset (List.mem_map_of_mem hu))
  · intro hz
    rw [← h5]
    exact e7 hz

/-- (negation) There may be no cells at all although the hole is well inside of the cube and the cells are not larger than the cube:
then all points of the lattice are too near to the hole, and with points on the edge of the hole only, every triangle is dropped. -/
theorem C77_empty_false : ∃ lx ly lz radius lmax : ℝ, 0 < radius ∧ 2 * radius < lx ∧ 2 * radius < ly ∧ 0 < lmax ∧ lmax < lx ∧ lmax < ly ∧
    lmax ≤ lz ∧ ∀ (delaunay : List (ℝ × ℝ) → Topo) (prismatic : Bool),
      (∀ pts, IsTris pts (delaunay pts) ∧ ∀ t ∈ delaunay pts, t.Nodup) →
      ∃ C, perforatedCube delaunay lx ly lz radius none (some lmax) prismatic = some (C, []) := by
  refine ⟨2, 2, 1, 1 / 2, 1, by norm_num, by norm_num, by norm_num, by norm_num, by norm_num, by norm_num, by norm_num, ?_⟩
  intro f b hf
  obtain ⟨s, g, -, s1, s2, hg, hmem⟩ := C77_grid (lx := 2) (ly := 2) (radius := 1 / 2) (lmax := some 1) (by simp)
  have hnil : g = [] := by
    rw [List.eq_nil_iff_forall_not_mem]
    intro p hp
    obtain ⟨hfar, i, j, hi, hj, rfl⟩ := (hmem p).1 hp
    have u : ∀ (x n : Nat), 4 ≤ n → x ≤ n → (2 * ((x : ℝ) / (n : ℝ) - 1 / 2)) ^ 2 ≤ 1 := by
      intro x n hn hx
      have hn' : (0 : ℝ) < n := by exact_mod_cast (by omega : 0 < n)
      have a1 : (x : ℝ) / n ≤ 1 := (div_le_one hn').2 (by exact_mod_cast hx)
      have a0 : 0 ≤ (x : ℝ) / n := by positivity
      nlinarith
    have hfar2 := pow_lt_pow_left₀ hfar (by norm_num [cubeClear]) two_ne_zero
    rw [hypot_sq] at hfar2
    have u1 := u i s.1 s1 hi
    have u2 := u j s.2 s2 hj
    simp only [cubeClear] at hfar2
    nlinarith
  subst hnil
  set n := cubeAngles (1 / 2) none (some 1)
  have hT := (hf ([] ++ cubeCircle (1 / 2) n)).1
  obtain ⟨P, kept, tris, C, T6, T4, r6, r4, hsub, hkeep, -, -, -, l6, -, l4, -, -⟩ :=
    C77_cells (delaunay := f) (lz := 1) (nangles := none) hg rfl hT
  obtain ⟨T, m1, m2, m3⟩ := maskTris_spec hT (1 / 2)
  have hk : kept = [] := by
    rw [List.eq_nil_iff_forall_not_mem]
    intro t ht
    have hrow : rowOf t ∈ f ([] ++ cubeCircle (1 / 2) n) := hsub.subset (List.mem_map_of_mem ht)
    obtain ⟨p, q, s, hc⟩ := corners_exist (hT _ hrow)
    have hin : rowOf t ∈ T := (m3 _ _ _ _ hc).2 ((hkeep t p q s hc).1 ht)
    have hlt : ∀ x ∈ rowOf t, x < n := by
      intro x hx
      have := (hT _ hrow).2 x hx
      rwa [List.nil_append, (C77_circle (radius := 1 / 2) (by norm_num) n).1] at this
    have hnd := (hf ([] ++ cubeCircle (1 / 2) n)).2 _ hrow
    refine C77_hole (radius := 1 / 2) (by norm_num) hT m1 (a := t.1) (b := t.2.1) (c := t.2.2) ?_ ?_ ?_ ?_ hin
    · simpa using hlt t.1 (by simp [rowOf])
    · simpa using hlt t.2.1 (by simp [rowOf])
    · simpa using hlt t.2.2 (by simp [rowOf])
    · intro e
      rw [rowOf, e] at hnd
      simp at hnd
  subst hk
  have z6 : T6 = [] := List.length_eq_zero_iff.1 (by simpa using l6)
  have z4 : T4 = [] := List.length_eq_zero_iff.1 (by simpa using l4)
  subst z6 z4
  cases b
  · exact ⟨C, r4⟩
  · exact ⟨C, r6⟩

/-- (negation) A cube lower than `lmax` has no layers and no cells. -/
theorem C77_layers_false {delaunay : List (ℝ × ℝ) → Topo} {lx ly lz radius l : ℝ} {nangles : Option Nat} {g : List (ℝ × ℝ)}
    (hg : cubeGridPoints lx ly radius (some l) = some g)
    (ht : ∀ pts, IsTris pts (delaunay pts)) (h0 : 0 < lz) (h1 : lz < l) (prismatic : Bool) :
    ∃ C, perforatedCube delaunay lx ly lz radius nangles (some l) prismatic = some (C, []) := by
  have hz : cubeLayers lz (some l) = 0 := by
    have hd : 0 ≤ lz / l := (div_pos h0 (h0.trans h1)).le
    have : ⌊lz / l⌋ = 0 := by
      rw [Int.floor_eq_iff]
      exact ⟨by simpa using hd, by simpa using (div_lt_one (h0.trans h1)).2 h1⟩
    simp [cubeLayers, pyInt, hd, this]
  obtain ⟨P, kept, tris, C, T6, T4, r6, r4, -, -, -, -, -, l6, -, l4, -, -⟩ :=
    C77_cells (delaunay := delaunay) (lz := lz) (nangles := nangles) hg rfl (ht _)
  rw [hz] at l6 l4
  have z6 : T6 = [] := List.length_eq_zero_iff.1 (by simpa using l6)
  have z4 : T4 = [] := List.length_eq_zero_iff.1 (by simpa using l4)
  subst z6 z4
  cases prismatic
  · exact ⟨C, r4⟩
  · exact ⟨C, r6⟩

/-- (negation) `lmax` is no upper bound for the distance of the points of the lattice: the number of divisions is rounded down. -/
theorem C77_lmax_false : ¬ ∀ (lx ly l : ℝ) (s : Nat × Nat), 0 < lx → 0 < ly → 0 < l → cubeShape lx ly (some l) = some s → lx / s.1 ≤ l := by
  intro h
  have := h (9 / 2) (9 / 2) 1 (4, 4) (by norm_num) (by norm_num) one_pos (by
    have : ⌊(9 / 2 : ℝ)⌋ = 4 := by rw [Int.floor_eq_iff]; norm_num
    norm_num [cubeShape, pyInt, this]
    rfl)
  norm_num at this

theorem lattice_step {l : ℝ} (hl : 0 < l) {x : ℝ} (hx : 0 < x) : x / ((max (pyInt (x / l)) 4).toNat : ℝ) < 5 / 4 * l := by
  have hd : 0 ≤ x / l := (div_pos hx hl).le
  have hf : x / l < ⌊x / l⌋ + 1 := Int.lt_floor_add_one _
  have e : pyInt (x / l) = ⌊x / l⌋ := by simp [pyInt, hd]
  have hc : (((max (pyInt (x / l)) 4).toNat : ℕ) : ℝ) = max (⌊x / l⌋ : ℝ) 4 := by
    have : (((max (pyInt (x / l)) 4).toNat : ℕ) : ℤ) = max (pyInt (x / l)) 4 :=
      Int.toNat_of_nonneg (le_trans (by norm_num) (le_max_right _ _))
    have h2 : (((max (pyInt (x / l)) 4).toNat : ℕ) : ℝ) = ((max (pyInt (x / l)) 4 : ℤ) : ℝ) := by exact_mod_cast this
    rw [h2, e]
    push_cast
    rfl
  rw [hc]
  have hm : (4 : ℝ) ≤ max (⌊x / l⌋ : ℝ) 4 := le_max_right _ _
  have hm2 : (⌊x / l⌋ : ℝ) ≤ max (⌊x / l⌋ : ℝ) 4 := le_max_left _ _
  rw [div_lt_iff₀ (by linarith)]
  rw [div_lt_iff₀ hl] at hf
  nlinarith

/-- **C77** the distances of the points of the lattice are less than `5/4` of `lmax`. Missing: not greater than `lmax`
(`C77_lmax_false`). -/
theorem C77_lmax_partial {lx ly l : ℝ} (hx : 0 < lx) (hy : 0 < ly) (hl : 0 < l) :
    ∃ s, cubeShape lx ly (some l) = some s ∧ lx / s.1 < 5 / 4 * l ∧ ly / s.2 < 5 / 4 * l := by
  refine ⟨((max (pyInt (lx / l)) 4).toNat, (max (pyInt (ly / l)) 4).toNat), ?_, lattice_step hl hx, lattice_step hl hy⟩
  rw [cubeShape]
  exact if_neg hl.ne'

/-- A case with a hole inside: the corners are kept. -/
example : ∃ P, cubeGridPoints 4 4 1 none = some P ∧ ((2, 2) : ℝ × ℝ) ∈ P ∧ ((2, -2) : ℝ × ℝ) ∈ P := by
  obtain ⟨s, g, -, -, -, hg, -⟩ := C77_grid (lx := 4) (ly := 4) (radius := 1) (lmax := none) (by simp)
  have hfar : cubeClear 1 none < hypot ((4 : ℝ) / 2, (4 : ℝ) / 2) := by
    refine lt_of_pow_lt_pow_left₀ 2 (hypot_nonneg _) ?_
    rw [hypot_sq]
    norm_num [cubeClear]
  have hc := C77_corners (lmax := none) (by simp) hfar hg
  refine ⟨g, hg, ?_, ?_⟩
  · have := hc 1 1 (.inr rfl) (.inr rfl)
    norm_num at this
    exact this
  · have := hc 1 (-1) (.inr rfl) (.inl rfl)
    norm_num at this
    exact this

end PM
