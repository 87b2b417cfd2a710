import Verif.PropsQuad
/-!
C37: what the rule with two layers in a wedge, both at the height of the first, integrates exactly.
-/
namespace PM

theorem three_pow_eq (m : Nat) (h : 3 ^ m = 2 * m + 1) : m = 0 ∨ m = 1 := by
  by_contra hc
  push Not at hc
  have hm : 2 ≤ m := by omega
  have : ∀ n, 2 ≤ n → 2 * n + 1 < 3 ^ n := by
    intro n hn
    induction n, hn using Nat.le_induction with
    | base => norm_num
    | succ n _ ih => rw [pow_succ]; omega
  have := this m hm
  omega

theorem triMom_pos (i j : Nat) : 0 < triMom i j 0 := by
  unfold triMom
  simp
  positivity

/-- **C37** (exact): with the Gauss points in height, the rule with two layers integrates `r ^ i s ^ j t ^ k` (`i + j ≤ 2`) if and only if `k` is 0
or 2. -/
theorem C37_Wedge_3x2_exact {p w : ℝ} (h : LineExact 3 [(p, w), (-p, w)]) {i j : Nat} (hij : i + j ≤ 2) (k : Nat) :
    ∃ rule, gaussWedge3x2 [(p, w), (-p, w)] = some rule ∧
      (quad rule (fun x => x.x ^ i * x.y ^ j * x.z ^ k) = wedgeInt (fun x => x.x ^ i * x.y ^ j * x.z ^ k) ↔ k = 0 ∨ k = 2) := by
  refine ⟨_, rfl, ?_⟩
  have hw : w = 1 := by
    have := h 0 (by omega)
    simp at this
    norm_num at this
    linarith
  have hp : p ^ 2 = 1 / 3 := by
    have := h 2 (by omega)
    simp [hw] at this
    norm_num at this
    linarith
  have e1 : wedgeInt (fun x => x.x ^ i * x.y ^ j * x.z ^ k) = triMom i j 0 * lineMom k := by
    have := wedgeInt_poly [⟨1, i, j, k⟩]
    have hf : polyVal [⟨1, i, j, k⟩] = fun x => x.x ^ i * x.y ^ j * x.z ^ k := by funext x; simp [polyVal]
    rw [hf] at this
    simpa using this
  have e2 : quad ((gaussTri3a.map fun q => (⟨⟨q.p.x, q.p.y, p⟩, q.w * w⟩ : QP)) ++ gaussTri3a.map fun q => ⟨⟨q.p.x, q.p.y, p⟩, q.w * w⟩)
      (fun x => x.x ^ i * x.y ^ j * x.z ^ k) = triMom i j 0 * (2 * p ^ k) := by
    rw [← quad_tri3a i j hij, hw]
    simp [quad, gaussTri3a]
    ring
  rw [e1, e2, mul_right_inj' (triMom_pos i j).ne', lineMom_eq]
  have hk1 : (k : ℝ) + 1 ≠ 0 := by positivity
  rcases Nat.even_or_odd k with ⟨m, rfl⟩ | hodd
  · have e3 : p ^ (m + m) = (1 / 3) ^ m := by rw [← two_mul, pow_mul, hp]
    have e4 : (-1 : ℝ) ^ (m + m + 1) = -1 := by rw [pow_succ, ← two_mul, pow_mul]; simp
    rw [e3, e4]
    have h3 : (3 : ℝ) ^ m ≠ 0 := by positivity
    constructor
    · intro he
      have : (3 : ℝ) ^ m = 2 * m + 1 := by
        rw [one_div, inv_pow] at he
        field_simp at he
        push_cast at he
        linarith
      rcases three_pow_eq m (by exact_mod_cast this) with rfl | rfl
      · exact .inl rfl
      · exact .inr rfl
    · intro he
      obtain rfl | rfl : m = 0 ∨ m = 1 := by omega
      · norm_num
      · norm_num
  · have hp0 : p ≠ 0 := by rintro rfl; norm_num at hp
    have e4 : (-1 : ℝ) ^ (k + 1) = 1 := Even.neg_one_pow hodd.add_one
    rw [e4, sub_self, zero_div]
    constructor
    · intro he
      have := pow_ne_zero k hp0
      simp_all
    · rintro (rfl | rfl)
      · simp at hodd
      · exact absurd hodd (by decide)

/-- The Gauss points meet the hypothesis. -/
example : LineExact 3 [(Real.sqrt (1 / 3), 1), (-Real.sqrt (1 / 3), 1)] := by
  have hs : Real.sqrt (1 / 3) ^ 2 = 1 / 3 := Real.sq_sqrt (by norm_num)
  intro k hk
  have : k = 0 ∨ k = 1 ∨ k = 2 ∨ k = 3 := by omega
  rcases this with rfl | rfl | rfl | rfl
  · simp
  · simp
  · simp only [List.map_cons, List.map_nil, List.sum_cons, List.sum_nil, neg_sq, hs, integral_pow]; norm_num
  · simp only [List.map_cons, List.map_nil, List.sum_cons, List.sum_nil, integral_pow]; ring_nf

end PM
