import Verif.ShapeFn

/-!
# C34, C35: the hand-written shape functions and their derivatives
-/

namespace PM

open Shp

/-! ## specification -/

/-- The value of a linear function. -/
def linVal {K : Type} [Field K] (a b c d : K) (p : V3 K) : K := a + b * p.x + c * p.y + d * p.z

/-- `N` are shape functions of the master cell with nodes `lc` (doubled coordinates, see `half`) in `dim` dimensions. -/
structure Interpolates (K : Type) [Field K] (dim : Nat) (lc : List (V3 Int)) (N : List PE) : Prop where
  /-- One function for each node. -/
  len : N.length = lc.length
  /-- They sum to one everywhere. -/
  unity : ∀ x : V3 K, (N.map fun e => e.eval x).sum = 1
  /-- Each is one at its own node and zero at the others. -/
  kron : ∀ (i j : Nat) (e : PE) (p : V3 Int), N[i]? = some e → lc[j]? = some p →
    e.eval (half p : V3 K) = if i = j then 1 else 0
  /-- Linear functions are reproduced from nodal values. -/
  linear : ∀ (a b c d : K) (x : V3 K), (dim < 2 → c = 0) → (dim < 3 → d = 0) →
    ((N.zip lc).map fun q => q.1.eval x * linVal a b c d (half q.2)).sum = linVal a b c d x

/-- The columns of `dN` are the partial derivatives of `N`. -/
structure Derivatives (dim : Nat) (N : List PE) (dN : List (List PE)) : Prop where
  len : dN.length = N.length
  width : ∀ row ∈ dN, row.length = dim
  deriv : ∀ (i k : Nat) (e D : PE) (row : List PE) (d : Dir), N[i]? = some e → dN[i]? = some row → row[k]? = some D →
    [Dir.r, Dir.s, Dir.t][k]? = some d → ∀ x : V3 ℝ, IsPartial (fun y => e.eval y) d x (D.eval x)

/-! ## checking by computation -/

/-- A sum of expressions. -/
def peSum : List PE → PE
  | [] => .c 0
  | e :: l => .add e (peSum l)

theorem eval_peSum {K : Type} [Field K] (x : V3 K) (l : List PE) : (peSum l).eval x = (l.map fun e => e.eval x).sum := by
  induction l with
  | nil => simp [peSum, PE.eval]
  | cons e l ih => simp [peSum, PE.eval, ih]

/-- A weighted sum of expressions. -/
def peComb (f : V3 Int → Int) : List PE → List (V3 Int) → PE
  | e :: l, p :: lc => .add (.mul (.c (mkRat (f p) 2)) e) (peComb f l lc)
  | _, _ => .c 0

theorem eval_peComb {K : Type} [Field K] [CharZero K] (x : V3 K) (f : V3 Int → Int) (l : List PE) (lc : List (V3 Int)) :
    (peComb f l lc).eval x = ((l.zip lc).map fun q => q.1.eval x * ((f q.2 : K) / 2)).sum := by
  induction l generalizing lc with
  | nil => simp [peComb, PE.eval]
  | cons e l ih =>
    cases lc with
    | nil => simp [peComb, PE.eval]
    | cons p lc =>
      simp only [peComb, PE.eval, ih, List.zip_cons_cons, List.map_cons, List.sum_cons]
      congr 1
      rw [Rat.mkRat_eq_div, mul_comm]
      push_cast
      rfl

/-- The check of `Interpolates`. -/
def interpCheck (dim : Nat) (lc : List (V3 Int)) (N : List PE) : Bool :=
  N.length == lc.length && PE.same (peSum N) (.c 1) &&
  ((List.range N.length).all fun i => (List.range lc.length).all fun j =>
    let p := lc.getD j 0
    (N.getD i (.c 0)).evalQ ⟨mkRat p.x 2, mkRat p.y 2, mkRat p.z 2⟩ == if i == j then 1 else 0) &&
  PE.same (peComb V3.x N lc) .r && (Nat.blt dim 2 || PE.same (peComb V3.y N lc) .s) &&
  (Nat.blt dim 3 || PE.same (peComb V3.z N lc) .t)

theorem half_cast {K : Type} [Field K] [CharZero K] (p : V3 Int) :
    (half p : V3 K) = ⟨((mkRat p.x 2 : ℚ) : K), ((mkRat p.y 2 : ℚ) : K), ((mkRat p.z 2 : ℚ) : K)⟩ := by
  simp only [half, Rat.mkRat_eq_div]
  push_cast
  rfl

theorem interpolates_of_check {K : Type} [Field K] [CharZero K] {dim : Nat} {lc : List (V3 Int)} {N : List PE}
    (h : interpCheck dim lc N = true) : Interpolates K dim lc N := by
  simp only [interpCheck, Bool.and_eq_true, Bool.or_eq_true, List.all_eq_true, List.mem_range, beq_iff_eq,
    Nat.blt_eq] at h
  obtain ⟨⟨⟨⟨⟨h1, h2⟩, h3⟩, h4⟩, h5⟩, h6⟩ := h
  have hu : ∀ x : V3 K, (N.map fun e => e.eval x).sum = 1 := by
    intro x
    rw [← eval_peSum, PE.same_sound h2 x]
    simp [PE.eval]
  refine ⟨h1, hu, ?_, ?_⟩
  · intro i j e p hi hj
    have hi' := (List.getElem?_eq_some_iff.1 hi).1
    have hj' := (List.getElem?_eq_some_iff.1 hj).1
    have := h3 i hi' j hj'
    simp only [List.getD_eq_getElem?_getD, hi, hj, Option.getD_some] at this
    rw [half_cast, PE.eval_cast ⟨mkRat p.x 2, mkRat p.y 2, mkRat p.z 2⟩, this]
    split <;> simp
  · intro a b c d x hc hd
    have e1 : ((N.zip lc).map fun q => q.1.eval x * linVal a b c d (half q.2)).sum =
        a * (N.map fun e => e.eval x).sum + b * (peComb V3.x N lc).eval x + c * (peComb V3.y N lc).eval x +
        d * (peComb V3.z N lc).eval x := by
      rw [eval_peComb, eval_peComb, eval_peComb]
      clear hu h2 h3 h4 h5 h6
      induction N generalizing lc with
      | nil => simp
      | cons e N ih =>
        cases lc with
        | nil => simp at h1
        | cons p lc =>
          simp only [List.length_cons, Nat.add_right_cancel_iff] at h1
          simp only [List.zip_cons_cons, List.map_cons, List.sum_cons]
          rw [ih h1]
          simp only [linVal, half]
          ring
    rw [e1, hu, PE.same_sound h4 x]
    have e2 : c * (peComb V3.y N lc).eval x = c * x.y := by
      rcases h5 with h5 | h5
      · rw [hc h5]; simp
      · rw [PE.same_sound h5 x]; rfl
    have e3 : d * (peComb V3.z N lc).eval x = d * x.z := by
      rcases h6 with h6 | h6
      · rw [hd h6]; simp
      · rw [PE.same_sound h6 x]; rfl
    rw [e2, e3]
    simp [PE.eval, linVal]

/-- The check of one row of derivatives. -/
def rowCheck (e : PE) : List PE → List Dir → Bool
  | D :: row, d :: ds => PE.same D (e.diff d) && rowCheck e row ds
  | [], _ => true
  | _, [] => false

/-- The check of `Derivatives`. -/
def derivCheck (dim : Nat) : List PE → List (List PE) → Bool
  | e :: N, row :: dN => row.length == dim && rowCheck e row [.r, .s, .t] && derivCheck dim N dN
  | [], [] => true
  | _, _ => false

theorem rowCheck_sound {e : PE} {row : List PE} {ds : List Dir} (h : rowCheck e row ds = true) {k : Nat} {D : PE} {d : Dir}
    (hD : row[k]? = some D) (hd : ds[k]? = some d) : PE.same D (e.diff d) = true := by
  induction row generalizing ds k with
  | nil => simp at hD
  | cons D' row ih =>
    cases ds with
    | nil => simp at hd
    | cons d' ds =>
      simp only [rowCheck, Bool.and_eq_true] at h
      cases k with
      | zero =>
        simp at hD hd
        subst hD; subst hd
        exact h.1
      | succ k =>
        rw [List.getElem?_cons_succ] at hD hd
        exact ih h.2 hD hd

theorem derivatives_of_check {dim : Nat} {N : List PE} {dN : List (List PE)} (h : derivCheck dim N dN = true) :
    Derivatives dim N dN := by
  induction N generalizing dN with
  | nil =>
    cases dN with
    | nil => exact ⟨rfl, by simp, by simp⟩
    | cons row dN => simp [derivCheck] at h
  | cons e N ih =>
    cases dN with
    | nil => simp [derivCheck] at h
    | cons row dN =>
      simp only [derivCheck, Bool.and_eq_true, beq_iff_eq] at h
      obtain ⟨⟨h1, h2⟩, h3⟩ := h
      have ih' := ih h3
      refine ⟨by simp [ih'.len], ?_, ?_⟩
      · intro r hr
        rcases List.mem_cons.1 hr with rfl | hr
        · exact h1
        · exact ih'.width r hr
      · intro i k e' D row' d he hrow hD hd x
        cases i with
        | zero =>
          simp at he hrow
          subst he; subst hrow
          rw [PE.same_sound (rowCheck_sound h2 hD hd) x]
          exact PE.hasDerivAt e d x
        | succ i =>
          rw [List.getElem?_cons_succ] at he hrow
          exact ih'.deriv i k e' D row' d he hrow hD hd x

/-! ## C34 -/

/-- `L2.lcoords`, cells/l2.py 55-63, doubled. -/
def lcL2 : List (V3 Int) := [⟨-2, 0, 0⟩, ⟨2, 0, 0⟩]

section
variable (K : Type) [Field K] [CharZero K]

/-- **C34** line cells. -/
theorem C34_L2 : Interpolates K 1 lcL2 shpL2 := interpolates_of_check (by decide +kernel)

/-- **C34** triangles. -/
theorem C34_T3 : Interpolates K 2 lcT3 shpT3 := interpolates_of_check (by decide +kernel)

/-- **C34** quadratic triangles. -/
theorem C34_T6 : Interpolates K 2 lcT6 shpT6 := interpolates_of_check (by decide +kernel)

/-- **C34** quadrilaterals. -/
theorem C34_Q4 : Interpolates K 2 lcQ4 shpQ4 := interpolates_of_check (by decide +kernel)

/-- **C34** biquadratic quadrilaterals. -/
theorem C34_Q9 : Interpolates K 2 lcQ9 shpQ9 := interpolates_of_check (by decide +kernel)

/-- **C34** tetrahedra. -/
theorem C34_TET4 : Interpolates K 3 lcTET4 shpTET4 := interpolates_of_check (by decide +kernel)

/-- **C34** hexahedra. -/
theorem C34_H8 : Interpolates K 3 lcH8 shpH8 := interpolates_of_check (by decide +kernel)

/-- **C34** triquadratic hexahedra. -/
theorem C34_H27 : Interpolates K 3 lcH27 shpH27 := interpolates_of_check (by decide +kernel)

end

/-! ## C35 -/

/-- **C35** line cells. -/
theorem C35_L2 : Derivatives 1 shpL2 dshpL2 := derivatives_of_check (by decide +kernel)

/-- **C35** triangles. -/
theorem C35_T3 : Derivatives 2 shpT3 dshpT3 := derivatives_of_check (by decide +kernel)

/-- **C35** quadratic triangles. -/
theorem C35_T6 : Derivatives 2 shpT6 dshpT6 := derivatives_of_check (by decide +kernel)

/-- **C35** quadrilaterals. -/
theorem C35_Q4 : Derivatives 2 shpQ4 dshpQ4 := derivatives_of_check (by decide +kernel)

/-- **C35** biquadratic quadrilaterals. -/
theorem C35_Q9 : Derivatives 2 shpQ9 dshpQ9 := derivatives_of_check (by decide +kernel)

/-- **C35** tetrahedra. -/
theorem C35_TET4 : Derivatives 3 shpTET4 dshpTET4 := derivatives_of_check (by decide +kernel)

/-- **C35** hexahedra. -/
theorem C35_H8 : Derivatives 3 shpH8 dshpH8 := derivatives_of_check (by decide +kernel)

/-- **C35** triquadratic hexahedra. -/
theorem C35_H27 : Derivatives 3 shpH27 dshpH27 := derivatives_of_check (by decide +kernel)

/-- Concrete values: the shape functions of a quadrilateral at (1/2, 0). -/
example : shpQ4.map (fun e => e.evalQ ⟨1 / 2, 0, 0⟩) = [1 / 8, 3 / 8, 3 / 8, 1 / 8] := by decide +kernel

/-- The check does not accept wrong derivatives. -/
example : derivCheck 2 shpT3 [[-1, -1], [1, 0], [0, 2]] = false := by decide +kernel

end PM
