import Verif.PropsTriMore

/-!
# C66: exactly which clouds `is_planar` accepts
-/

namespace PM
open V3

/-- The three points that `is_planar` looks at: the first, one farthest from it, and one with the greatest sum of the distances from these two. Among equals
the one listed first. -/
structure ChosenThree (coords : List (V3 ℝ)) (a b c : V3 ℝ) : Prop where
  first : coords[0]? = some a
  second : ∃ i, coords[i]? = some b ∧ (∀ p ∈ coords, dist3 p a ≤ dist3 b a) ∧ ∀ (k : Nat) (p : V3 ℝ), k < i → coords[k]? = some p → dist3 p a < dist3 b a
  third : ∃ i, coords[i]? = some c ∧ (∀ p ∈ coords, dist3 p a + dist3 p b ≤ dist3 c a + dist3 c b) ∧
    ∀ (k : Nat) (p : V3 ℝ), k < i → coords[k]? = some p → dist3 p a + dist3 p b < dist3 c a + dist3 c b

theorem argmax_map {α : Type} {l : List α} (h : l ≠ []) (φ : α → ℝ) : ∃ (i : Nat) (x : α), argmax (l.map φ) = some i ∧ l[i]? = some x ∧
    (∀ y ∈ l, φ y ≤ φ x) ∧ ∀ (k : Nat) (y : α), k < i → l[k]? = some y → φ y < φ x := by
  obtain ⟨j, a, h1, -, h3, h4, h5⟩ := argmaxFrom_spec (l.map φ) 0 (by simpa using h)
  rw [Nat.sub_zero, List.getElem?_map] at h3
  obtain ⟨x, hx, rfl⟩ := Option.map_eq_some_iff.1 h3
  refine ⟨j, x, by rw [argmax, h1, Option.map_some], hx, fun y hy => h4 _ (List.mem_map_of_mem hy), fun k y hk hy => ?_⟩
  exact h5 k (φ y) (by omega) (by rw [List.getElem?_map, hy, Option.map_some])

/-- The code chooses these three points. -/
theorem planarInds_chosen {coords : List (V3 ℝ)} (h : coords ≠ []) : ∃ a b c, planarInds coords = some (a, b, c) ∧ ChosenThree coords a b c := by
  obtain ⟨a, ha⟩ : ∃ a, coords[0]? = some a := by
    cases coords with
    | nil => exact absurd rfl h
    | cons a l => exact ⟨a, rfl⟩
  obtain ⟨i, b, hi, hb, h1, h2⟩ := argmax_map h fun q => vnorm (q - a)
  obtain ⟨k, c, hk, hc, h3, h4⟩ := argmax_map h fun q => vnorm (q - a) + vnorm (q - b)
  refine ⟨a, b, c, ?_, ha, ⟨i, hb, ?_, ?_⟩, ⟨k, hc, ?_, ?_⟩⟩
  · have e : List.zipWith (fun x y => x + y) (distancesFrom coords a) (distancesFrom coords b) = coords.map fun q => vnorm (q - a) + vnorm (q - b) := by
      rw [distancesFrom, distancesFrom, List.zipWith_map]
      clear h ha hi hb h1 h2 hk hc h3 h4
      induction coords with
      | nil => rfl
      | cons x l ih => rw [List.zipWith_cons_cons, ih, List.map_cons]
    rw [planarInds, ha, Option.bind_some, show distancesFrom coords a = coords.map fun q => vnorm (q - a) from rfl] at *
    rw [hi, Option.bind_some, hb, Option.bind_some, e, hk, Option.bind_some, hc, Option.map_some]
  · simpa only [vnorm_sub] using h1
  · simpa only [vnorm_sub] using h2
  · simpa only [vnorm_sub] using h3
  · simpa only [vnorm_sub] using h4

/-- **C66** (`is_planar`, exactly): the answer is yes if and only if the three points that the code looks at are not on a line and all points are in one plane
*through the origin*. An empty cloud is an error. -/
theorem C66_planar_exact (coords : List (V3 ℝ)) :
    (coords = [] → isPlanar coords 0 = none) ∧ (coords ≠ [] → ∃ a b c P, ChosenThree coords a b c ∧ isPlanar coords 0 = some P ∧
      (P ↔ cross (b - a) (c - a) ≠ 0 ∧ ∃ n : V3 ℝ, n ≠ 0 ∧ ∀ p ∈ coords, dot n p = 0)) := by
  refine ⟨fun h => by rw [h]; rfl, fun h => ?_⟩
  obtain ⟨a, b, c, ht, hch⟩ := planarInds_chosen h
  have hb : b ∈ coords := List.mem_of_getElem? hch.second.choose_spec.1
  have hc : c ∈ coords := List.mem_of_getElem? hch.third.choose_spec.1
  have ha : a ∈ coords := List.mem_of_getElem? hch.first
  refine ⟨a, b, c, _, hch, by rw [isPlanar, ht, Option.map_some], ?_⟩
  by_cases hx : cross (b - a) (c - a) = 0
  · simp only [frameOfPlane3_none hx]
    exact ⟨False.elim, fun h => h.1 hx⟩
  · obtain ⟨g, F, e1, e2, c', hc', e3⟩ := frameOfPlane3 hx
    simp only [e1]
    have hkb : dot F.k b = dot F.k a := by
      rw [e3]; simp only [dot, cross, smul_x, smul_y, smul_z, sub_x, sub_y, sub_z]; ring
    constructor
    · rintro ⟨-, hP⟩
      have htail : ∀ p ∈ coords.tail, dot F.k p = 0 := fun p hp => by
        have := abs_eq_zero.1 (le_antisymm (hP p hp) (abs_nonneg _))
        rw [← this]; simp only [dot]; ring
      have hba : b ≠ a := by
        rintro rfl
        apply hx
        ext <;> simp [cross]
      refine ⟨hx, F.k, fun hz => ?_, fun p hp => ?_⟩
      · have := e2.kk
        rw [hz] at this
        simp [dot] at this
      · have h1 := hch.first
        cases coords with
        | nil => cases hp
        | cons x l =>
          obtain rfl : x = a := Option.some.inj h1
          rcases List.mem_cons.1 hp with rfl | hp
          · rw [← hkb]
            exact htail b ((List.mem_cons.1 hb).resolve_left hba)
          · exact htail p hp
    · rintro ⟨-, n, hn, hp⟩
      have p1 := hp a ha
      have p2 := hp b hb
      have p3 := hp c hc
      have q2 : dot n (b - a) = 0 := by
        have : dot n (b - a) = dot n b - dot n a := by simp only [dot, sub_x, sub_y, sub_z]; ring
        rw [this, p1, p2, sub_zero]
      have q3 : dot n (c - a) = 0 := by
        have : dot n (c - a) = dot n c - dot n a := by simp only [dot, sub_x, sub_y, sub_z]; ring
        rw [this, p1, p3, sub_zero]
      have hcr : cross F.k n = 0 := by
        rw [e3]
        generalize b - a = u at *
        generalize c - a = v at *
        simp only [dot] at q2 q3
        ext <;> simp only [cross, smul_x, smul_y, smul_z, zero_x, zero_y, zero_z]
        · linear_combination c' * (v.x * q2 - u.x * q3)
        · linear_combination c' * (v.y * q2 - u.y * q3)
        · linear_combination c' * (v.z * q2 - u.z * q3)
      have hnk := eq_smul_of_cross e2.kk hcr
      have hw : dot F.k n ≠ 0 := by
        intro hw
        rw [hw] at hnk
        apply hn
        rw [hnk]; ext <;> simp
      refine ⟨le_refl _, fun p hp' => ?_⟩
      have := hp p (List.mem_of_mem_tail hp')
      rw [hnk] at this
      have h5 : dot F.k n * dot p F.k = 0 := by
        rw [← this]; simp only [dot, smul_x, smul_y, smul_z]; ring
      rcases mul_eq_zero.1 h5 with h5 | h5
      · exact absurd h5 hw
      · rw [h5, abs_zero]

/-- A case: three points of a plane through the origin, which is not one of them. -/
example : ∃ P, isPlanar [⟨1, 0, 0⟩, ⟨0, 1, 0⟩, ⟨-1, -1, 0⟩] 0 = some P ∧ P := by
  obtain ⟨a, b, c, P, h1, h2, h3⟩ := (C66_planar_exact [⟨1, 0, 0⟩, ⟨0, 1, 0⟩, ⟨-1, -1, 0⟩]).2 (by simp)
  refine ⟨P, h2, h3.2 ⟨?_, ⟨0, 0, 1⟩, fun h => by simpa using congrArg V3.z h, by simp [dot]⟩⟩
  have ha : a = ⟨1, 0, 0⟩ := (Option.some.inj h1.first).symm
  obtain ⟨i, hi, m1, -⟩ := h1.second
  obtain ⟨k, hk, m2, -⟩ := h1.third
  have d1 : dist3 (⟨0, 1, 0⟩ : V3 ℝ) ⟨1, 0, 0⟩ = √2 := by rw [dist3]; norm_num
  have d2 : dist3 (⟨-1, -1, 0⟩ : V3 ℝ) ⟨1, 0, 0⟩ = √5 := by rw [dist3]; norm_num
  have d3 : dist3 (⟨0, 1, 0⟩ : V3 ℝ) ⟨-1, -1, 0⟩ = √5 := by rw [dist3]; norm_num
  have d4 : dist3 (⟨1, 0, 0⟩ : V3 ℝ) ⟨1, 0, 0⟩ = 0 := by rw [dist3]; norm_num
  have d5 : dist3 (⟨-1, -1, 0⟩ : V3 ℝ) ⟨-1, -1, 0⟩ = 0 := by rw [dist3]; norm_num
  have d6 : dist3 (⟨1, 0, 0⟩ : V3 ℝ) ⟨-1, -1, 0⟩ = √5 := by rw [dist3]; norm_num
  have s1 : √2 < √5 := Real.sqrt_lt_sqrt (by norm_num) (by norm_num)
  have s2 : 0 < √2 := Real.sqrt_pos.2 (by norm_num)
  subst ha
  have hb : b = ⟨-1, -1, 0⟩ := by
    have := m1 ⟨-1, -1, 0⟩ (by simp)
    have hm := List.mem_of_getElem? hi
    simp only [List.mem_cons, List.not_mem_nil, or_false] at hm
    rcases hm with rfl | rfl | rfl
    · rw [d2, d4] at this; linarith
    · rw [d2, d1] at this; linarith
    · rfl
  subst hb
  have hc : c = ⟨0, 1, 0⟩ := by
    have := m2 ⟨0, 1, 0⟩ (by simp)
    have hm := List.mem_of_getElem? hk
    simp only [List.mem_cons, List.not_mem_nil, or_false] at hm
    rcases hm with rfl | rfl | rfl
    · rw [d1, d3, d4, d6] at this; linarith
    · rfl
    · rw [d1, d3, d2, d5] at this; linarith
  subst hc
  intro h
  have := congrArg V3.z h
  simp [cross] at this
  norm_num at this

end PM
