import Verif.Tri
import Mathlib.Algebra.Order.Field.Rat

/-!
# C27, C28, C29: triangles of the plane
-/

namespace PM

/-! ## specification -/

section
variable {K : Type} [Field K]

/-- `n` are affine coordinates of `p` in the triangle: they sum to one and combine the corners to `p`. -/
structure IsNat (t : Tri K) (p : P2 K) (n : N3 K) : Prop where
  sum : n.n1 + n.n2 + n.n3 = 1
  x : n.n1 * t.p1.x + n.n2 * t.p2.x + n.n3 * t.p3.x = p.x
  y : n.n1 * t.p1.y + n.n2 * t.p2.y + n.n3 * t.p3.y = p.y

/-- Counterclockwise: the third corner is on the left of the directed line from the first to the second. -/
def turn (a b c : P2 K) : K := (b.x - a.x) * (c.y - a.y) - (c.x - a.x) * (b.y - a.y)

/-- The triangle moved by a vector. -/
def Tri.move (t : Tri K) (v : P2 K) : Tri K :=
  ⟨⟨t.p1.x + v.x, t.p1.y + v.y⟩, ⟨t.p2.x + v.x, t.p2.y + v.y⟩, ⟨t.p3.x + v.x, t.p3.y + v.y⟩⟩

/-- A point mapped by the matrix `((a, b), (c, d))`. -/
def P2.lin (p : P2 K) (a b c d : K) : P2 K := ⟨a * p.x + b * p.y, c * p.x + d * p.y⟩

end

section
variable {K : Type} [Field K] [LinearOrder K]

/-- `p` is a convex combination of the corners. -/
def InTri (t : Tri K) (p : P2 K) : Prop := ∃ n, IsNat t p n ∧ 0 ≤ n.n1 ∧ 0 ≤ n.n2 ∧ 0 ≤ n.n3

/-- `p` is a convex combination of the corners with positive weights: a point of the interior. -/
def InsideTri (t : Tri K) (p : P2 K) : Prop := ∃ n, IsNat t p n ∧ 0 < n.n1 ∧ 0 < n.n2 ∧ 0 < n.n3

def Ccw (t : Tri K) : Prop := 0 < turn t.p1 t.p2 t.p3
def Cw (t : Tri K) : Prop := turn t.p1 t.p2 t.p3 < 0

end

/-! ## C27 -/

section
variable {K : Type} [Field K]

/-- **C27** moving a triangle does not change its area. -/
theorem C27_translation (t : Tri K) (v : P2 K) : areaTri (t.move v) = areaTri t := by
  simp only [areaTri, triArea2, Tri.move]; ring

/-- **C27** renumbering the corners cyclically does not change the area, exchanging two of them changes its sign. -/
theorem C27_alternating (a b c : P2 K) :
    areaTri ⟨b, c, a⟩ = areaTri ⟨a, b, c⟩ ∧ areaTri ⟨c, a, b⟩ = areaTri ⟨a, b, c⟩ ∧
    areaTri ⟨b, a, c⟩ = -areaTri ⟨a, b, c⟩ ∧ areaTri ⟨a, c, b⟩ = -areaTri ⟨a, b, c⟩ ∧
    areaTri ⟨c, b, a⟩ = -areaTri ⟨a, b, c⟩ := by
  simp only [areaTri, triArea2]; refine ⟨?_, ?_, ?_, ?_, ?_⟩ <;> ring

/-- **C27** splitting at any point (also outside of the triangle) conserves the area. -/
theorem C27_split (a b c p : P2 K) :
    areaTri ⟨a, b, c⟩ = areaTri ⟨a, b, p⟩ + areaTri ⟨b, c, p⟩ + areaTri ⟨c, a, p⟩ := by
  simp only [areaTri, triArea2]; ring

/-- **C27** a linear map multiplies areas by its determinant, and the triangle (0,0), (1,0), (0,1) has area 1/2.
With `C27_translation` this determines the area of every triangle. -/
theorem C27_affine (t : Tri K) (a b c d : K) :
    areaTri ⟨t.p1.lin a b c d, t.p2.lin a b c d, t.p3.lin a b c d⟩ = (a * d - b * c) * areaTri t ∧
    areaTri (⟨⟨0, 0⟩, ⟨1, 0⟩, ⟨0, 1⟩⟩ : Tri K) = 1 / 2 := by
  constructor
  · simp only [areaTri, triArea2, P2.lin]; ring
  · simp [areaTri, triArea2]

/-- **C27** twice the area is the turn from the first side to the other: zero exactly if the corners are collinear,
positive exactly if they are listed counterclockwise. -/
theorem C27_turn [CharZero K] (t : Tri K) : 2 * areaTri t = turn t.p1 t.p2 t.p3 := by
  simp only [areaTri, triArea2, turn]; field_simp; ring

theorem foldl_area (ts : List (Tri K)) (a : K) :
    ts.foldl (fun A t => A + triArea2 t) a = a + (ts.map triArea2).sum := by
  induction ts generalizing a with
  | nil => simp
  | cons t ts ih => rw [List.foldl_cons, ih, List.map_cons, List.sum_cons, add_assoc]

/-- **C27** the variants for arrays agree with `area_tri`: one value per triangle, the sum over all triangles, and
the two functions of coordinate lists. -/
theorem C27_variants (ts : List (Tri K)) :
    areaTriBulk ts = ts.map areaTri ∧ areasTri ts = (ts.map areaTri).sum ∧
    ∀ x1 y1 x2 y2 x3 y3 : K, areaTriU x1 y1 x2 y2 x3 y3 = areaTri ⟨⟨x1, y1⟩, ⟨x2, y2⟩, ⟨x3, y3⟩⟩ ∧
      areaTriU2 x1 x2 x3 y1 y2 y3 = areaTri ⟨⟨x1, y1⟩, ⟨x2, y2⟩, ⟨x3, y3⟩⟩ := by
  refine ⟨by rw [areaTriBulk, List.map_map]; rfl, ?_, ?_⟩
  · rw [areasTri, foldl_area, zero_add]
    induction ts with
    | nil => simp
    | cons t ts ih => rw [List.map_cons, List.sum_cons, add_div, ih, List.map_cons, List.sum_cons]; rfl
  · intro x1 y1 x2 y2 x3 y3
    simp only [areaTriU, areaTriU2, areaTri, triArea2]
    constructor <;> ring

example : areaTri (⟨⟨1, 1⟩, ⟨4, 1⟩, ⟨1, 3⟩⟩ : Tri ℚ) = 3 := by decide +kernel

/-- **C27** on a collinear triple the area is zero: the converse of non-degeneracy. -/
theorem C27_collinear (a b : P2 K) (s : K) :
    areaTri ⟨a, b, ⟨a.x + s * (b.x - a.x), a.y + s * (b.y - a.y)⟩⟩ = 0 := by
  simp only [areaTri, triArea2]; ring

/-! ## C28 -/

/-- **C28** natural coordinates are unique in a triangle that is not degenerate. -/
theorem C28_unique {t : Tri K} (h : turn t.p1 t.p2 t.p3 ≠ 0) {p : P2 K} {n m : N3 K} (hn : IsNat t p n)
    (hm : IsNat t p m) : n = m := by
  have e1 := hn.sum
  have e2 := hn.x
  have e3 := hn.y
  have f1 := hm.sum
  have f2 := hm.x
  have f3 := hm.y
  have h2 : turn t.p1 t.p2 t.p3 * (n.n2 - m.n2) = 0 := by
    simp only [turn]
    linear_combination (t.p3.y - t.p1.y) * (e2 - f2) - (t.p3.x - t.p1.x) * (e3 - f3)
      + (t.p1.y * t.p3.x - t.p1.x * t.p3.y) * (e1 - f1)
  have h3 : turn t.p1 t.p2 t.p3 * (n.n3 - m.n3) = 0 := by
    simp only [turn]
    linear_combination (t.p2.x - t.p1.x) * (e3 - f3) - (t.p2.y - t.p1.y) * (e2 - f2)
      + (t.p1.x * t.p2.y - t.p1.y * t.p2.x) * (e1 - f1)
  have h2 := sub_eq_zero.1 ((mul_eq_zero.1 h2).resolve_left h)
  have h3 := sub_eq_zero.1 ((mul_eq_zero.1 h3).resolve_left h)
  ext
  · linear_combination e1 - f1 - h2 - h3
  · exact h2
  · exact h3

/-- **C28** `nat_to_glob_tri` combines the corners. -/
theorem C28_nat_to_glob {t : Tri K} {n : N3 K} (h : n.n1 + n.n2 + n.n3 = 1) : IsNat t (natToGlobTri n t) n := by
  refine ⟨h, ?_, ?_⟩ <;> simp only [natToGlobTri] <;> ring

/-- **C28** natural and local coordinates: `loc_to_nat_tri` and `nat_to_loc_tri` are inverse to each other, and the
point of both is the same. -/
theorem C28_local (t : Tri K) :
    (∀ l : P2 K, natToLocTri (locToNatTri l) = l) ∧
    (∀ n : N3 K, n.n1 + n.n2 + n.n3 = 1 → locToNatTri (natToLocTri n) = n ∧
      locToGlobTri (natToLocTri n) t = natToGlobTri n t) ∧
    (∀ l : P2 K, IsNat t (locToGlobTri l t) (locToNatTri l)) := by
  have key : ∀ n : N3 K, n.n1 + n.n2 + n.n3 = 1 → locToNatTri (natToLocTri n) = n := by
    intro n h
    ext <;> simp [locToNatTri, natToLocTri, shpTri, natToGlobTri, lcoordsTri]
    linear_combination -h
  refine ⟨?_, ?_, ?_⟩
  · intro l
    ext <;> simp [locToNatTri, natToLocTri, shpTri, natToGlobTri, lcoordsTri]
  · intro n h
    refine ⟨key n h, ?_⟩
    have := key n h
    rw [locToGlobTri]
    rw [locToNatTri] at this
    rw [this]
  · intro l
    exact C28_nat_to_glob (by simp only [shpTri]; ring)

/-- **C28** `glob_to_loc_tri` does not invert `loc_to_glob_tri`: in the triangle (0,0), (1,0), (0,1), where local and
global coordinates are the same, it subtracts (1, 1) from every point. (The inverse of the matrix should be
transposed.) -/
theorem C28_glob_to_loc_false [DecidableEq K] (p : P2 K) :
    locToGlobTri p lcoordsTri = p ∧ globToLocTri p lcoordsTri = some ⟨p.x - 1, p.y - 1⟩ ∧
    globToLocTri p lcoordsTri ≠ some p := by
  have h1 : globToLocTri p lcoordsTri = some ⟨p.x - 1, p.y - 1⟩ := by
    simp only [globToLocTri, solve3, lcoordsTri, V3.det3, V3.cross]
    simp [natToGlobTri]
    constructor <;> ring
  refine ⟨by ext <;> simp [locToGlobTri, shpTri, natToGlobTri, lcoordsTri], h1, ?_⟩
  rw [h1]
  intro h
  have := congrArg P2.x (Option.some.inj h)
  simp at this

end

section
variable {K : Type} [Field K] [LinearOrder K] [IsStrictOrderedRing K]

omit [LinearOrder K] [IsStrictOrderedRing K] in
/-- The denominator of the code is the absolute value of the turn. -/
theorem denom_eq (t : Tri K) :
    t.p2.x * (t.p3.y - t.p1.y) + t.p1.x * (t.p2.y - t.p3.y) + t.p3.x * (t.p1.y - t.p2.y) = turn t.p1 t.p2 t.p3 := by
  simp only [turn]; ring

/-- **C28** in a triangle listed counterclockwise `glob_to_nat_tri` gives the natural coordinates of the point.
Missing part of the full property: triangles listed clockwise, where it is false (`C28_clockwise_false`). -/
theorem C28_glob_to_nat_partial {t : Tri K} (h : Ccw t) (p : P2 K) :
    IsNat t p (globToNatTri p t) ∧ natToGlobTri (globToNatTri p t) t = p ∧
    ∀ n : N3 K, n.n1 + n.n2 + n.n3 = 1 → globToNatTri (natToGlobTri n t) t = n := by
  have hp : ∀ p : P2 K, IsNat t p (globToNatTri p t) := by
    intro p
    have h0 : turn t.p1 t.p2 t.p3 ≠ 0 := ne_of_gt h
    simp only [globToNatTri, denom_eq, abs_of_pos (show 0 < turn t.p1 t.p2 t.p3 from h)]
    generalize hd : turn t.p1 t.p2 t.p3 = d at h0 ⊢
    simp only [turn] at hd
    refine ⟨by ring, ?_, ?_⟩ <;> field_simp <;> rw [← hd] <;> ring
  refine ⟨hp p, ?_, ?_⟩
  · have := hp p
    ext
    · rw [← this.x]; simp only [natToGlobTri]; ring
    · rw [← this.y]; simp only [natToGlobTri]; ring
  · intro n hn
    exact C28_unique (ne_of_gt h) (hp _) (C28_nat_to_glob hn)

example : Ccw (⟨⟨1, 1⟩, ⟨4, 1⟩, ⟨1, 3⟩⟩ : Tri ℚ) ∧
    globToNatTri (⟨2, 2⟩ : P2 ℚ) ⟨⟨1, 1⟩, ⟨4, 1⟩, ⟨1, 3⟩⟩ = ⟨1/6, 1/3, 1/2⟩ := by
  unfold Ccw; decide +kernel

/-- What `glob_to_nat_tri` gives in a triangle listed clockwise. -/
theorem globToNat_cw {t : Tri K} (h : Cw t) {p : P2 K} {n : N3 K} (hn : IsNat t p n) :
    globToNatTri p t = ⟨-n.n1, -n.n2, 1 + n.n1 + n.n2⟩ := by
  have h0 : turn t.p1 t.p2 t.p3 ≠ 0 := ne_of_lt h
  simp only [globToNatTri, denom_eq, abs_of_neg (show turn t.p1 t.p2 t.p3 < 0 from h)]
  have e1 := hn.sum
  have e2 := hn.x
  have e3 := hn.y
  have e4 : n.n3 = 1 - n.n1 - n.n2 := by linear_combination e1
  rw [e4] at e2 e3
  have f1 : (t.p2.x * t.p3.y - p.x * t.p3.y - t.p3.x * t.p2.y + p.x * t.p2.y + t.p3.x * p.y - t.p2.x * p.y) /
      -turn t.p1 t.p2 t.p3 = -n.n1 := by
    rw [div_eq_iff (by simpa using h0), ← e2, ← e3]
    simp only [turn]; ring
  have f2 : (p.x * t.p3.y - t.p1.x * t.p3.y + t.p3.x * t.p1.y - p.x * t.p1.y - t.p3.x * p.y + t.p1.x * p.y) /
      -turn t.p1 t.p2 t.p3 = -n.n2 := by
    rw [div_eq_iff (by simpa using h0), ← e2, ← e3]
    simp only [turn]; ring
  rw [f1, f2]
  ext <;> simp

/-- **C28** is false for every triangle listed clockwise: there `glob_to_nat_tri` gives the natural coordinates of the
point at the third corner only. -/
theorem C28_clockwise_false {t : Tri K} (h : Cw t) (p : P2 K) : IsNat t p (globToNatTri p t) ↔ p = t.p3 := by
  have h0 : turn t.p1 t.p2 t.p3 ≠ 0 := ne_of_lt h
  constructor
  · intro hn
    have h1 := globToNat_cw h hn
    have h2 : (globToNatTri p t).n1 = 0 := by
      have := congrArg N3.n1 h1
      simp only at this
      linarith
    have h3 : (globToNatTri p t).n2 = 0 := by
      have := congrArg N3.n2 h1
      simp only at this
      linarith
    have h4 : (globToNatTri p t).n3 = 1 := by
      have := hn.sum
      rw [h2, h3] at this
      linarith
    have hx := hn.x
    have hy := hn.y
    rw [h2, h3, h4] at hx hy
    ext
    · linarith
    · linarith
  · rintro rfl
    have hn : IsNat t t.p3 ⟨0, 0, 1⟩ := ⟨by simp, by simp, by simp⟩
    have := globToNat_cw h hn
    rw [this]
    simpa using hn

example : Cw (⟨⟨1, 1⟩, ⟨1, 3⟩, ⟨4, 1⟩⟩ : Tri ℚ) ∧
    globToNatTri (⟨2, 5/3⟩ : P2 ℚ) ⟨⟨1, 1⟩, ⟨1, 3⟩, ⟨4, 1⟩⟩ = ⟨-1/3, -1/3, 5/3⟩ := by
  unfold Cw; decide +kernel

/-! ## C29 -/

/-- **C29** the test with tolerance zero, for triangles listed counterclockwise, is membership in the *interior*.
With a positive tolerance all points of the closed triangle pass, a point that passes has natural coordinates above
minus the tolerance, and the points that pass for every tolerance are exactly those of the triangle. -/
theorem C29_pip_partial {t : Tri K} (h : Ccw t) (p : P2 K) :
    (pipTri 0 (globToNatTri p t) = true ↔ InsideTri t p) ∧
    (∀ tol : K, 0 < tol → InTri t p → pipTri tol (globToNatTri p t) = true) ∧
    (∀ tol : K, pipTri tol (globToNatTri p t) = true →
      ∃ n, IsNat t p n ∧ -tol < n.n1 ∧ -tol < n.n2 ∧ -tol < n.n3) ∧
    ((∀ tol : K, 0 < tol → pipTri tol (globToNatTri p t) = true) ↔ InTri t p) := by
  obtain ⟨hn, _, _⟩ := C28_glob_to_nat_partial h p
  have hs := hn.sum
  have huniq : ∀ m, IsNat t p m → m = globToNatTri p t := fun m hm => C28_unique (ne_of_gt h) hm hn
  have htol : ∀ tol : K, pipTri tol (globToNatTri p t) = true →
      ∃ n, IsNat t p n ∧ -tol < n.n1 ∧ -tol < n.n2 ∧ -tol < n.n3 := by
    intro tol hp
    simp only [pipTri, Bool.and_eq_true, decide_eq_true_eq] at hp
    exact ⟨_, hn, hp.1.1.1, hp.1.1.2, hp.1.2⟩
  have hclosed : ∀ tol : K, 0 < tol → InTri t p → pipTri tol (globToNatTri p t) = true := by
    rintro tol h0 ⟨m, hm, h1, h2, h3⟩
    rw [huniq m hm] at h1 h2 h3
    simp only [pipTri, Bool.and_eq_true, decide_eq_true_eq]
    refine ⟨⟨⟨?_, ?_⟩, ?_⟩, ⟨?_, ?_⟩, ?_⟩ <;> linarith
  refine ⟨?_, hclosed, htol, ?_, fun hi tol h0 => hclosed tol h0 hi⟩
  · constructor
    · intro hp
      obtain ⟨n, h1, h2, h3, h4⟩ := htol 0 hp
      rw [neg_zero] at h2 h3 h4
      exact ⟨n, h1, h2, h3, h4⟩
    · rintro ⟨m, hm, h1, h2, h3⟩
      rw [huniq m hm] at h1 h2 h3
      simp only [pipTri, Bool.and_eq_true, decide_eq_true_eq]
      refine ⟨⟨⟨?_, ?_⟩, ?_⟩, ⟨?_, ?_⟩, ?_⟩ <;> linarith
  · intro hall
    refine ⟨_, hn, ?_⟩
    have key : ∀ a : K, (∀ tol : K, 0 < tol → -tol < a) → 0 ≤ a := by
      intro a ha
      by_contra hlt
      push Not at hlt
      have := ha (-a / 2) (by linarith)
      linarith
    refine ⟨key _ fun tol h0 => ?_, key _ fun tol h0 => ?_, key _ fun tol h0 => ?_⟩ <;>
      · obtain ⟨n, h1, h2, h3, h4⟩ := htol tol (hall tol h0)
        rw [huniq n h1] at h2 h3 h4
        assumption

/-- **C29** the points of the sides and the corners do not pass the test with tolerance zero. -/
theorem C29_boundary_false : Ccw (⟨⟨0, 0⟩, ⟨1, 0⟩, ⟨0, 1⟩⟩ : Tri ℚ) ∧
    InTri (⟨⟨0, 0⟩, ⟨1, 0⟩, ⟨0, 1⟩⟩ : Tri ℚ) ⟨1/2, 0⟩ ∧
    pipTri 0 (globToNatTri (⟨1/2, 0⟩ : P2 ℚ) ⟨⟨0, 0⟩, ⟨1, 0⟩, ⟨0, 1⟩⟩) = false := by
  refine ⟨by unfold Ccw; decide +kernel, ⟨⟨1/2, 1/2, 0⟩, ⟨?_, ?_, ?_⟩, ?_, ?_, ?_⟩, by decide +kernel⟩ <;> norm_num

/-- **C29** is false for triangles listed clockwise: no point of such a triangle passes the test with tolerance zero,
and for a tolerance below 1/3 the centre does not pass. -/
theorem C29_clockwise_false {t : Tri K} (h : Cw t) :
    (∀ p, InTri t p → pipTri 0 (globToNatTri p t) = false) ∧
    ∀ tol : K, tol ≤ 1/3 → InsideTri t (centerTri t) ∧ pipTri tol (globToNatTri (centerTri t) t) = false := by
  constructor
  · rintro p ⟨n, hn, h1, h2, h3⟩
    rw [globToNat_cw h hn]
    simp only [pipTri, neg_zero]
    have : ¬ (0 < -n.n1) := by linarith
    simp [this]
  · intro tol h0
    have hn : IsNat t (centerTri t) ⟨1/3, 1/3, 1/3⟩ := by
      refine ⟨by norm_num, ?_, ?_⟩ <;> simp only [centerTri] <;> ring
    refine ⟨⟨_, hn, by norm_num, by norm_num, by norm_num⟩, ?_⟩
    rw [globToNat_cw h hn]
    simp only [pipTri]
    have : ¬ (-tol < -(1/3)) := by linarith
    simp only [this, decide_false, Bool.false_and]

/-- **C29** what `localize_points` reports: the first triangle in which no natural coordinate exceeds one, with the
natural coordinates in it. In particular a point of a triangle is always reported in *some* triangle. Missing part of
the full property: the triangle reported need not contain the point (`C29_localize_false`). -/
theorem C29_localize_partial {ts : List (Tri K)} (h : ∀ t ∈ ts, Ccw t) (p : P2 K) (k : Nat) :
    ((∃ t ∈ ts, InTri t p) → ∃ r, localizeFrom p ts k = some r) ∧
    ∀ i n, localizeFrom p ts k = some (i, n) → k ≤ i ∧ ∃ t, ts[i - k]? = some t ∧ IsNat t p n ∧
      n.n1 ≤ 1 ∧ n.n2 ≤ 1 ∧ n.n3 ≤ 1 := by
  induction ts generalizing k with
  | nil => simp [localizeFrom]
  | cons t ts ih =>
    obtain ⟨i1, i2⟩ := ih (fun x hx => h x (List.mem_cons_of_mem _ hx)) (k + 1)
    obtain ⟨hn, _, _⟩ := C28_glob_to_nat_partial (h t List.mem_cons_self) p
    rw [localizeFrom]
    by_cases hm : max (globToNatTri p t).n1 (max (globToNatTri p t).n2 (globToNatTri p t).n3) ≤ 1
    · simp only [if_pos hm]
      refine ⟨fun _ => ⟨_, rfl⟩, ?_⟩
      intro i n hi
      cases Option.some.inj hi
      simp only [max_le_iff] at hm
      exact ⟨le_refl _, t, by simp, hn, hm.1, hm.2.1, hm.2.2⟩
    · simp only [if_neg hm]
      constructor
      · rintro ⟨s, hs, hin⟩
        rcases List.mem_cons.1 hs with rfl | hs
        · exfalso
          obtain ⟨m, hm', h1, h2, h3⟩ := hin
          rw [C28_unique (ne_of_gt (h s List.mem_cons_self)) hm' hn] at h1 h2 h3
          have := hn.sum
          apply hm
          simp only [max_le_iff]
          refine ⟨?_, ?_, ?_⟩ <;> linarith
        · exact i1 ⟨s, hs, hin⟩
      · intro i n hi
        obtain ⟨h1, s, h2, h3⟩ := i2 i n hi
        refine ⟨by omega, s, ?_, h3⟩
        rw [show i - k = (i - (k + 1)) + 1 by omega, List.getElem?_cons_succ]
        exact h2

/-- **C29** on a mesh with nodes in range `get_points_inside_triangles` is true for every point of a triangle
(triangles listed counterclockwise). Missing: it is also true for points outside of all triangles. -/
theorem C29_inside_partial {points : List (P2 K)} {tris : List (Nat × Nat × Nat)} {ts : List (Tri K)}
    (ht : tris.mapM (triCoords points) = some ts) (h : ∀ t ∈ ts, Ccw t) (coords : List (P2 K)) :
    ∃ R, pointsInside points tris coords = some R ∧ R.length = coords.length ∧
      ∀ (i : Nat) (p : P2 K), coords[i]? = some p → (∃ t ∈ ts, InTri t p) → R[i]? = some true := by
  refine ⟨_, by rw [pointsInside, localizePoints, ht]; rfl, by simp, ?_⟩
  intro i p hp hin
  obtain ⟨r, hr⟩ := (C29_localize_partial h p 0).1 hin
  simp [hp, hr]

/-- The square of corners (0,0), (1,0), (1,1), (0,1), cut in two. -/
def squarePts : List (P2 ℚ) := [⟨0, 0⟩, ⟨1, 0⟩, ⟨1, 1⟩, ⟨0, 1⟩]

example : (tris : List (Nat × Nat × Nat)) → tris = [(0, 1, 3), (1, 2, 3)] →
    (tris.mapM (triCoords squarePts)) = some [⟨⟨0, 0⟩, ⟨1, 0⟩, ⟨0, 1⟩⟩, ⟨⟨1, 0⟩, ⟨1, 1⟩, ⟨0, 1⟩⟩] ∧
    ∀ t ∈ ([⟨⟨0, 0⟩, ⟨1, 0⟩, ⟨0, 1⟩⟩, ⟨⟨1, 0⟩, ⟨1, 1⟩, ⟨0, 1⟩⟩] : List (Tri ℚ)), Ccw t := by
  rintro _ rfl
  unfold Ccw
  decide +kernel

/-- **C29** is false of `localize_points`: a point of the interior of the second triangle is reported in the first one
(with a negative weight), and a point that is in neither triangle is reported as inside. -/
theorem C29_localize_false :
    localizePoints squarePts [(0, 1, 3), (1, 2, 3)] [⟨3/4, 3/4⟩] = some [some (0, ⟨-1/2, 3/4, 3/4⟩)] ∧
    InsideTri (⟨⟨1, 0⟩, ⟨1, 1⟩, ⟨0, 1⟩⟩ : Tri ℚ) ⟨3/4, 3/4⟩ ∧
    ¬ InTri (⟨⟨0, 0⟩, ⟨1, 0⟩, ⟨0, 1⟩⟩ : Tri ℚ) ⟨3/4, 3/4⟩ ∧
    pointsInside squarePts [(0, 1, 3)] [⟨3/4, 3/4⟩] = some [true] := by
  refine ⟨by decide +kernel, ⟨⟨1/4, 1/2, 1/4⟩, ⟨?_, ?_, ?_⟩, ?_, ?_, ?_⟩, ?_, by decide +kernel⟩
  all_goals try norm_num
  rintro ⟨n, hn, h1, h2, h3⟩
  have e1 := hn.sum
  have e2 := hn.x
  have e3 := hn.y
  simp at e2 e3
  linarith

end

section
variable {K : Type} [Field K] [LinearOrder K]

instance (t : Tri K) : Decidable (Ccw t) := inferInstanceAs (Decidable (0 < turn t.p1 t.p2 t.p3))

end

section
variable {K : Type} [Field K] [LinearOrder K] [IsStrictOrderedRing K]

/-! ## what the functions compute for all triangles -/

/-- **C28** (exact account) for every triangle that is not degenerate: the natural coordinates if it is listed counterclockwise, otherwise
the first two with the opposite sign and what is missing to one. -/
theorem C28_exact {t : Tri K} (h : turn t.p1 t.p2 t.p3 ≠ 0) {p : P2 K} {n : N3 K} (hn : IsNat t p n) :
    globToNatTri p t = if Ccw t then n else ⟨-n.n1, -n.n2, 1 + n.n1 + n.n2⟩ := by
  by_cases hc : Ccw t
  · rw [if_pos hc]
    exact C28_unique h (C28_glob_to_nat_partial hc p).1 hn
  · rw [if_neg hc]
    exact globToNat_cw (lt_of_le_of_ne (not_lt.1 hc) h) hn

/-- **C28** (exact account) `glob_to_loc_tri` gives the two slopes of the plane that has the heights `1`, `x` and `y` at the three corners; it
raises exactly for degenerate triangles. -/
theorem C28_glob_to_loc_exact (t : Tri K) (g : P2 K) :
    (turn t.p1 t.p2 t.p3 = 0 ↔ globToLocTri g t = none) ∧
    ∀ l, globToLocTri g t = some l → ∃ c, c + l.x * t.p1.x + l.y * t.p1.y = 1 ∧ c + l.x * t.p2.x + l.y * t.p2.y = g.x ∧
      c + l.x * t.p3.x + l.y * t.p3.y = g.y := by
  have hd : V3.det3 ⟨1, t.p1.x, t.p1.y⟩ ⟨1, t.p2.x, t.p2.y⟩ ⟨1, t.p3.x, t.p3.y⟩ = turn t.p1 t.p2 t.p3 := by
    simp only [V3.det3, turn]; ring
  constructor
  · rw [globToLocTri, Option.map_eq_none_iff, solve3, hd]
    by_cases h : turn t.p1 t.p2 t.p3 = 0 <;> simp [h]
  · intro l hl
    obtain ⟨s, hs, rfl⟩ := Option.map_eq_some_iff.1 hl
    obtain ⟨h1, h2, h3⟩ := solve3_spec hs
    simp only [V3.dot] at h1 h2 h3
    refine ⟨s.x, ?_, ?_, ?_⟩ <;> simp only [natToGlobTri, lcoordsTri]
    · linear_combination h1
    · linear_combination h2
    · linear_combination h3

/-- **C29** (exact account) the test for every triangle that is not degenerate, every point and every tolerance. -/
theorem C29_exact {t : Tri K} (h : turn t.p1 t.p2 t.p3 ≠ 0) {p : P2 K} {n : N3 K} (hn : IsNat t p n) (tol : K) :
    pipTri tol (globToNatTri p t) = true ↔
      if Ccw t then (-tol < n.n1 ∧ n.n1 < 1 + tol) ∧ (-tol < n.n2 ∧ n.n2 < 1 + tol) ∧ -tol < n.n3 ∧ n.n3 < 1 + tol
      else (n.n1 < tol ∧ -n.n1 < 1 + tol) ∧ (n.n2 < tol ∧ -n.n2 < 1 + tol) ∧ n.n3 < 2 + tol ∧ 1 - tol < n.n3 := by
  rw [C28_exact h hn]
  have hs := hn.sum
  split
  · simp only [pipTri, Bool.and_eq_true, decide_eq_true_eq]
    constructor
    · rintro ⟨⟨⟨a, b⟩, c⟩, ⟨⟨d, e⟩, f⟩⟩; exact ⟨⟨a, d⟩, ⟨b, e⟩, c, f⟩
    · rintro ⟨⟨a, d⟩, ⟨b, e⟩, c, f⟩; exact ⟨⟨⟨a, b⟩, c⟩, ⟨⟨d, e⟩, f⟩⟩
  · simp only [pipTri, Bool.and_eq_true, decide_eq_true_eq]
    constructor
    · rintro ⟨⟨⟨a, b⟩, c⟩, ⟨⟨d, e⟩, f⟩⟩
      refine ⟨⟨?_, ?_⟩, ⟨?_, ?_⟩, ?_, ?_⟩ <;> linarith
    · rintro ⟨⟨a, d⟩, ⟨b, e⟩, c, f⟩
      refine ⟨⟨⟨?_, ?_⟩, ?_⟩, ⟨⟨?_, ?_⟩, ?_⟩⟩ <;> linarith

/-- The triangle twice as large whose sides have the corners of `t` as midpoints. -/
def Tri.doubled (t : Tri K) : Tri K :=
  ⟨⟨t.p2.x + t.p3.x - t.p1.x, t.p2.y + t.p3.y - t.p1.y⟩, ⟨t.p3.x + t.p1.x - t.p2.x, t.p3.y + t.p1.y - t.p2.y⟩,
    ⟨t.p1.x + t.p2.x - t.p3.x, t.p1.y + t.p2.y - t.p3.y⟩⟩

theorem inTri_doubled {t : Tri K} {p : P2 K} : InTri t.doubled p ↔ ∃ n, IsNat t p n ∧ n.n1 ≤ 1 ∧ n.n2 ≤ 1 ∧ n.n3 ≤ 1 := by
  constructor
  · rintro ⟨m, ⟨h1, h2, h3⟩, a, b, c⟩
    simp only [Tri.doubled] at h2 h3
    refine ⟨⟨m.n2 + m.n3 - m.n1, m.n3 + m.n1 - m.n2, m.n1 + m.n2 - m.n3⟩, ⟨?_, ?_, ?_⟩, ?_, ?_, ?_⟩
    · linear_combination h1
    · linear_combination h2
    · linear_combination h3
    all_goals simp only; linarith
  · rintro ⟨n, ⟨h1, h2, h3⟩, a, b, c⟩
    refine ⟨⟨(1 - n.n1) / 2, (1 - n.n2) / 2, (1 - n.n3) / 2⟩, ⟨?_, ?_, ?_⟩, ?_, ?_, ?_⟩
    · linear_combination (-1 / 2) * h1
    · simp only [Tri.doubled]
      linear_combination h2 - (t.p1.x + t.p2.x + t.p3.x) / 2 * h1
    · simp only [Tri.doubled]
      linear_combination h3 - (t.p1.y + t.p2.y + t.p3.y) / 2 * h1
    all_goals simp only; linarith

/-- **C29** (exact account) `localize_points` reports the first triangle whose *doubled* triangle contains the point, with the natural
coordinates in it, and nothing if there is none (triangles listed counterclockwise). -/
theorem C29_localize_exact {ts : List (Tri K)} (h : ∀ t ∈ ts, Ccw t) (p : P2 K) :
    (∀ i n, localizeFrom p ts 0 = some (i, n) ↔ ∃ t, ts[i]? = some t ∧ IsNat t p n ∧ InTri t.doubled p ∧
      ∀ (j : Nat) (s : Tri K), j < i → ts[j]? = some s → ¬ InTri s.doubled p) ∧
    (localizeFrom p ts 0 = none ↔ ∀ t ∈ ts, ¬ InTri t.doubled p) := by
  have key : ∀ (ts : List (Tri K)), (∀ t ∈ ts, Ccw t) → ∀ k, (∀ i n, localizeFrom p ts k = some (i, n) ↔ k ≤ i ∧ ∃ t, ts[i - k]? = some t ∧
      IsNat t p n ∧ InTri t.doubled p ∧ ∀ (j : Nat) (s : Tri K), j < i - k → ts[j]? = some s → ¬ InTri s.doubled p) ∧
      (localizeFrom p ts k = none ↔ ∀ t ∈ ts, ¬ InTri t.doubled p) := by
    intro ts
    induction ts with
    | nil => intro _ k; simp [localizeFrom]
    | cons t ts ih =>
      intro h k
      obtain ⟨i1, i2⟩ := ih (fun x hx => h x (List.mem_cons_of_mem _ hx)) (k + 1)
      have ht := h t List.mem_cons_self
      have hn := (C28_glob_to_nat_partial ht p).1
      have hin : InTri t.doubled p ↔ max (globToNatTri p t).n1 (max (globToNatTri p t).n2 (globToNatTri p t).n3) ≤ 1 := by
        rw [inTri_doubled, max_le_iff, max_le_iff]
        constructor
        · rintro ⟨n, hm, a⟩
          rwa [← C28_unique (ne_of_gt ht) hm hn]
        · exact fun a => ⟨_, hn, a⟩
      rw [localizeFrom]
      by_cases hm : InTri t.doubled p
      · simp only [if_pos (hin.1 hm)]
        refine ⟨fun i n => ⟨?_, ?_⟩, ?_⟩
        · rintro e
          obtain ⟨rfl, rfl⟩ := Prod.mk.inj (Option.some.inj e)
          exact ⟨le_rfl, t, by simp, hn, hm, fun j s hj => by omega⟩
        · rintro ⟨hk, s, hs, hns, _, hj⟩
          have : i = k := by
            by_contra hne
            exact hj 0 t (by omega) rfl hm
          subst this
          simp only [Nat.sub_self, List.getElem?_cons_zero, Option.some.injEq] at hs
          subst hs
          rw [C28_unique (ne_of_gt ht) hns hn]
        · constructor
          · simp
          · intro hh
            exact absurd hm (hh t List.mem_cons_self)
      · simp only [if_neg (mt hin.2 hm)]
        refine ⟨fun i n => ?_, ?_⟩
        · rw [i1 i n]
          constructor
          · rintro ⟨hk, s, hs, a, b, c⟩
            refine ⟨by omega, s, by rw [show i - k = (i - (k + 1)) + 1 by omega]; exact hs, a, b, ?_⟩
            intro j u hj hu
            cases j with
            | zero =>
              obtain rfl : t = u := by simpa using hu
              exact hm
            | succ j => exact c j u (by omega) (by simpa using hu)
          · rintro ⟨hk, s, hs, a, b, c⟩
            have : i ≠ k := by
              rintro rfl
              simp only [Nat.sub_self, List.getElem?_cons_zero, Option.some.injEq] at hs
              subst hs
              exact hm b
            rw [show i - k = (i - (k + 1)) + 1 by omega] at hs
            exact ⟨by omega, s, by simpa using hs, a, b, fun j u hj hu => c (j + 1) u (by omega) (by simpa using hu)⟩
        · rw [i2]
          simp [hm]
  obtain ⟨k1, k2⟩ := key ts h 0
  exact ⟨fun i n => by rw [k1 i n]; simp, k2⟩

/-- **C29** (exact account) `get_points_inside_triangles` is true exactly for the points of the doubled triangles. -/
theorem C29_inside_exact {points : List (P2 K)} {tris : List (Nat × Nat × Nat)} {ts : List (Tri K)}
    (ht : tris.mapM (triCoords points) = some ts) (h : ∀ t ∈ ts, Ccw t) (coords : List (P2 K)) :
    ∃ R, pointsInside points tris coords = some R ∧ R.length = coords.length ∧
      ∀ (i : Nat) (p : P2 K), coords[i]? = some p → (R[i]? = some true ↔ ∃ t ∈ ts, InTri t.doubled p) := by
  refine ⟨_, by rw [pointsInside, localizePoints, ht]; rfl, by simp, ?_⟩
  intro i p hp
  have := (C29_localize_exact h p).2
  simp only [List.getElem?_map, hp, Option.map_some, Option.some.injEq]
  rw [← Option.ne_none_iff_isSome, ne_eq, this]
  push Not
  rfl

/-- A case: the point (3/4, 3/4) is outside of the triangle (0,0), (1,0), (0,1), and in the doubled one. -/
example : InTri (⟨⟨0, 0⟩, ⟨1, 0⟩, ⟨0, 1⟩⟩ : Tri ℚ).doubled ⟨3/4, 3/4⟩ ∧ ¬ InTri (⟨⟨0, 0⟩, ⟨1, 0⟩, ⟨0, 1⟩⟩ : Tri ℚ).doubled ⟨5/4, 0⟩ := by
  refine ⟨inTri_doubled.2 ⟨⟨-1/2, 3/4, 3/4⟩, ⟨by norm_num, by norm_num, by norm_num⟩, by norm_num, by norm_num, by norm_num⟩, fun h => ?_⟩
  obtain ⟨n, ⟨_, h2, _⟩, _, h4, _⟩ := inTri_doubled.1 h
  simp at h2
  linarith

end

end PM
